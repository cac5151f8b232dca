import Verif.Props.Run64
import Verif.Lemmas.Grid64

/-!
# C87: a gridded 2-D run in binary64

As C86, with the velocities interpolated by the fast interpolator from samples on a grid: index
coordinates, cell search and bilinear kernel are rounded as well.
-/

namespace Verif

open Matrix Set

/-! ## Specification -/

/-- The C++ target with binary64 numbers: the conversions are those of the C++ standard or of
x86-64, every product and sum of the kernel is rounded on its own (no fused operations). -/
abbrev Target64 (m : CMachine Fl) : Prop := Target (fun q : Fl => ⌊q.val⌋) (fun z : ℤ => (z : Fl)) m

/-- The nodes `xs` of an axis: `n` binary64 numbers between the first and the last, within `ζ` of
equally spaced ones. -/
structure Nodes64 (n : ℕ) (xs : ℕ → Fl) (dx ζ : ℝ) : Prop where
  two : 2 ≤ n
  lim : (n : ℤ) < intLim
  spacing : (xs (n - 1)).re - (xs 0).re = ((n : ℝ) - 1) * dx
  normal : 2 ^ (-500 : ℤ) ≤ dx
  uniform : ∀ a < n, |(xs a).re - ((xs 0).re + a * dx)| ≤ ζ
  between : ∀ a < n, (xs 0).re ≤ (xs a).re ∧ (xs a).re ≤ (xs (n - 1)).re

/-- The snapshots of the source sample `v` up to `ν` at the times `t0, t0 + h, ...` at the nodes,
listed with `x` varying fastest; the coordinates are handed out in every step. -/
structure Samples64 (fs : MatFS Fl) (s : FileSource Fl) (v : ℝ → (Fin 2 → ℝ) → Fin 2 → ℝ) (t0 : ℝ)
    (nx ny : ℕ) (xs ys : ℕ → Fl) (dx dy ζ ν : ℝ) : Prop where
  fresh : s.reuseCoordinates = false
  x : Nodes64 nx xs dx ζ
  y : Nodes64 ny ys dy ζ
  data : ∀ j < s.snapshotFiles.length, ∃ V P, s.Listed fs j V P ∧
    V.shape = [2, nx * ny] ∧ P.shape = [2, nx * ny] ∧
    (∀ a < nx, ∀ b < ny, P.get [0, a + nx * b] = xs a ∧ P.get [1, a + nx * b] = ys b) ∧
    ∀ a < nx, ∀ b < ny, ∀ c : Fin 2,
      |(V.get [c, a + nx * b]).re -
        v (t0 + j * s.timestep.re) ![(xs a).re, (ys b).re] c| ≤ ν

/-- The rectangle of the grid. -/
def Rect64 (nx ny : ℕ) (xs ys : ℕ → Fl) : Set (Fin 2 → ℝ) :=
  {z | (xs 0).re ≤ z 0 ∧ z 0 ≤ (xs (nx - 1)).re ∧ (ys 0).re ≤ z 1 ∧ z 1 ≤ (ys (ny - 1)).re}

/-- A point of the axis which stays away from the last node by more than `2^-50 n` spacings. -/
def OnAxis64 (n : ℕ) (xs : ℕ → Fl) (dx : ℝ) (x : ℝ) : Prop :=
  (xs 0).re ≤ x ∧ x + 2 ^ (-50 : ℤ) * n * dx < (xs (n - 1)).re

/-! ## The interpolator -/

/-- The spacing as the interpolator computes it. -/
def step64 (n : ℕ) (xs : ℕ → Fl) : Fl := (xs (n - 1) - xs 0) / ((n - 1 : ℕ) : Fl)

/-- The index coordinate. -/
def coord64 (n : ℕ) (xs : ℕ → Fl) (x : Fl) : Fl := (x - xs 0) / step64 n xs

/-- The velocity handed out for the nodal values `f`. -/
def bilinear64 (nx ny : ℕ) (xs ys : ℕ → Fl) (f : ℕ → ℕ → ℕ → Fl) (z : Fin 2 → Fl) (c : Fin 2) : Fl :=
  let i := ⌊(coord64 nx xs (z 0)).val⌋.toNat
  let j := ⌊(coord64 ny ys (z 1)).val⌋.toNat
  bilin (f c i j) (f c (i + 1) j) (f c i (j + 1)) (f c (i + 1) (j + 1))
    (coord64 nx xs (z 0) - ((i : ℤ) : Fl)) (coord64 ny ys (z 1) - ((j : ℤ) : Fl))

theorem conv64 {m : CMachine Fl} (hm : Target64 m) {n : ℕ} (hn : (n : ℤ) < intLim) {q : Fl}
    {i : ℕ} (hi : ⌊q.val⌋ = (i : ℤ)) (hin : i + 1 < n) :
    Conv m (fun q : Fl => ⌊q.val⌋) (some q) i := by
  rcases hm with rfl | rfl
  · have := conv_iso (floor := fun q : Fl => ⌊q.val⌋) (ofInt := fun z : ℤ => (z : Fl)) (q := q)
      (by simp only [hi]; omega) (by simp only [hi]; omega)
    simpa only [hi] using this
  · have := conv_x86 (floor := fun q : Fl => ⌊q.val⌋) (ofInt := fun z : ℤ => (z : Fl)) (p := some q)
      (by intro q' hq; cases hq; simp only [hi]; omega)
    have hf : x86Floor (fun q : Fl => ⌊q.val⌋) (some q) = i := by
      have hr : InInt32 (i : ℤ) := ⟨by omega, by omega⟩
      simp only [x86Floor, hi, hr, if_true]
    rwa [hf] at this

theorem ofInt64 {m : CMachine Fl} (hm : Target64 m) (z : ℤ) : m.ofInt z = (z : Fl) := by
  rcases hm with rfl | rfl <;> rfl

/-- Index coordinate and cell of a point of the axis. -/
theorem Nodes64.cell {n : ℕ} {xs : ℕ → Fl} {dx ζ : ℝ} (h : Nodes64 n xs dx ζ) {x : Fl}
    (hx : OnAxis64 n xs dx x.re) : step64 n xs ≠ 0 ∧ ∃ i : ℕ, ⌊(coord64 n xs x).val⌋ = (i : ℤ) ∧
      i + 1 < n ∧ (i : ℝ) ≤ (coord64 n xs x).re ∧ (coord64 n xs x).re < i + 1 ∧
      |(coord64 n xs x).re - (x.re - (xs 0).re) / dx| ≤ 2 ^ (-19 : ℤ) := by
  have hd : 0 < dx := lt_of_lt_of_le (by positivity) h.normal
  obtain ⟨a1, a2⟩ := hx
  have hpos : 0 ≤ (2 : ℝ) ^ (-50 : ℤ) * n * dx := by positivity
  obtain ⟨b1, b2, b3⟩ := index64 (x := x) h.two h.lim h.spacing h.normal a1 (by linarith)
  have hq : (x.re - (xs 0).re) / dx + 2 ^ (-50 : ℤ) * n < (n : ℝ) - 1 := by
    have : (x.re - (xs 0).re) / dx + 2 ^ (-50 : ℤ) * n =
        (x.re - (xs 0).re + 2 ^ (-50 : ℤ) * n * dx) / dx := by field_simp
    rw [this, div_lt_iff₀ hd]
    linarith [h.spacing]
  obtain ⟨i, c1, c2, c3, c4⟩ := cell64 (q := coord64 n xs x) (n := n) b2
    (by linarith [(abs_le.1 b3).2, show (coord64 n xs x).re =
      ((x - xs 0) / ((xs (n - 1) - xs 0) / ((n - 1 : ℕ) : Fl))).re from rfl])
  refine ⟨b1, i, c1, c2, c3, c4, b3.trans ?_⟩
  have : (n : ℝ) ≤ 2 ^ 31 := by
    have : (n : ℝ) < (2147483648 : ℤ) := by exact_mod_cast h.lim
    norm_num at this ⊢
    linarith
  calc (2 : ℝ) ^ (-50 : ℤ) * n ≤ 2 ^ (-50 : ℤ) * 2 ^ 31 :=
        mul_le_mul_of_nonneg_left this (by positivity)
    _ = 2 ^ (-19 : ℤ) := by norm_num

/-- One call of one object. -/
theorem value64 {m : CMachine Fl} (hm : Target64 m) {nx ny : ℕ} {xs ys : ℕ → Fl} {dx dy ζ : ℝ}
    (hx : Nodes64 nx xs dx ζ) (hy : Nodes64 ny ys dy ζ) {v : NDArray Fl} (hv : v.shape = [nx, ny])
    {f : ℕ → ℕ → ℕ → Fl} {c : Fin 2} (hf : ∀ i j, i < nx → j < ny → v.get [i, j] = f c i j)
    {z : Fin 2 → Fl} (zx : OnAxis64 nx xs dx (z 0).re) (zy : OnAxis64 ny ys dy (z 1).re) :
    interp2dAt m v nx ny ((⟨xs 0, some (step64 nx xs)⟩ : Axis Fl).index (z 0))
      ((⟨ys 0, some (step64 ny ys)⟩ : Axis Fl).index (z 1)) =
      .ok (bilinear64 nx ny xs ys f z c) := by
  obtain ⟨a1, i, a2, a3, -⟩ := hx.cell zx
  obtain ⟨b1, j, b2, b3, -⟩ := hy.cell zy
  simp only [Axis.index, if_neg a1, if_neg b1]
  change interp2dAt m v nx ny (some (coord64 nx xs (z 0))) (some (coord64 ny ys (z 1))) = _
  rw [interp2dAt_in hv hx.lim hy.lim (conv64 hm hx.lim a2 a3) (conv64 hm hy.lim b2 b3) a3 b3]
  unfold bilinear64
  simp only [a2, b2, Int.toNat_natCast]
  rw [hf _ _ (by omega) (by omega), hf _ _ a3 (by omega), hf _ _ (by omega) b3, hf _ _ a3 b3,
    ofInt64 hm, ofInt64 hm]

/-- The axis of a row of the listing. -/
theorem Nodes64.axis {n N c : ℕ} {xs : ℕ → Fl} {dx ζ : ℝ} (h : Nodes64 n xs dx ζ) {p : NDArray Fl}
    (h1 : ∀ q < N, ∃ a < n, p.get [c, q] = xs a) (h2 : ∀ a < n, ∃ q < N, p.get [c, q] = xs a)
    (A : NDArray Fl) (hA : A.toList = ((List.range N).map fun q => p.get [c, q])) :
    axisOf A n = .ok ⟨xs 0, some (step64 n xs)⟩ := by
  have hn := h.two
  have mem : ∀ a < n, xs a ∈ A.toList := by
    intro a ha
    obtain ⟨q, hq, e⟩ := h2 a ha
    rw [hA, List.mem_map]
    exact ⟨q, List.mem_range.2 hq, e⟩
  refine axisOf64 hn (mem 0 (by omega)) (mem (n - 1) (by omega)) fun y hy => ?_
  rw [hA, List.mem_map] at hy
  obtain ⟨q, hq, rfl⟩ := hy
  obtain ⟨a, ha, e⟩ := h1 q (List.mem_range.1 hq)
  rw [e]
  exact ⟨Fl.re_le.1 (h.between a ha).1, Fl.re_le.1 (h.between a ha).2⟩

/-- The interpolator after the update of step `j`. -/
theorem samples_updated_64 {env : Env Fl Val64} (hm : Target64 env.m) {s : FileSource Fl}
    {v : ℝ → (Fin 2 → ℝ) → Fin 2 → ℝ} {t0 : ℝ} {nx ny : ℕ} {xs ys : ℕ → Fl} {dx dy ζ ν : ℝ}
    (hd : Samples64 env.fs s v t0 nx ny xs ys dx dy ζ ν) :
    ∃ f : ℕ → ℕ → ℕ → ℕ → Fl, ∀ j < s.snapshotFiles.length,
      (∀ a < nx, ∀ b < ny, ∀ c : Fin 2,
        |(f j c a b).re - v (t0 + j * s.timestep.re) ![(xs a).re, (ys b).re] c| ≤ ν) ∧
      ((Source.file s).updated env (.highPerf (HighPerf.fresh [nx, ny])) (j + 1)).2 = none ∧
      ∀ R, PointwiseOn {z | OnAxis64 nx xs dx (z 0).re ∧ OnAxis64 ny ys dy (z 1).re} R
        (((Source.file s).updated env (.highPerf (HighPerf.fresh [nx, ny])) (j + 1)).1.velocity env)
        (bilinear64 nx ny xs ys (f j)) := by
  have hnx := hd.x.two
  have hny := hd.y.two
  have upd : ∀ (s' : HighPerf Fl) (V P : NDArray Fl), s'.gridShape = [nx, ny] →
      V.shape = [2, nx * ny] → P.shape = [2, nx * ny] →
      (∀ a < nx, ∀ b < ny, P.get [0, a + nx * b] = xs a ∧ P.get [1, a + nx * b] = ys b) →
      ∃ s2 x y, s'.update V (some P) = (s2, none) ∧ s2.gridShape = [nx, ny] ∧ s2.ix = some x ∧
        s2.iy = some y ∧
        (x.axes = [⟨xs 0, some (step64 nx xs)⟩, ⟨ys 0, some (step64 ny ys)⟩] ∧
          x.v.shape = [nx, ny] ∧ ∀ i j, i < nx → j < ny → x.v.get [i, j] = V.get [0, i + nx * j]) ∧
        y.axes = [⟨xs 0, some (step64 nx xs)⟩, ⟨ys 0, some (step64 ny ys)⟩] ∧
          y.v.shape = [nx, ny] ∧ ∀ i j, i < nx → j < ny → y.v.get [i, j] = V.get [1, i + nx * j] := by
    intro s' V P hg hV hP hlist
    have lt : ∀ a < nx, ∀ b < ny, a + nx * b < nx * ny := by
      intro a ha b hb
      nlinarith
    have split : ∀ q < nx * ny, q % nx < nx ∧ q / nx < ny ∧ q % nx + nx * (q / nx) = q := fun q hq =>
      ⟨Nat.mod_lt _ (by omega), Nat.div_lt_of_lt_mul hq, Nat.mod_add_div q nx⟩
    obtain ⟨x, y, b1, b2, b3⟩ := build_axes_2d hP hV
      (hd.x.axis (fun q hq => by
          obtain ⟨h1, h2, h3⟩ := split q hq
          exact ⟨_, h1, by rw [← (hlist _ h1 _ h2).1, h3]⟩)
        fun a ha => ⟨_, lt a ha 0 (by omega), (hlist a ha 0 (by omega)).1⟩)
      (hd.y.axis (fun q hq => by
          obtain ⟨h1, h2, h3⟩ := split q hq
          exact ⟨_, h2, by rw [← (hlist _ h1 _ h2).2, h3]⟩)
        fun b hb => ⟨_, lt 0 (by omega) b hb, (hlist 0 (by omega) b hb).2⟩)
    unfold HighPerf.update HighPerf.initialize
    simp only [hg, b1]
    exact ⟨_, x, y, rfl, rfl, rfl, rfl, b2, b3⟩
  have dataOf : ∀ i V P, s.Listed env.fs i V P → s.dataForStep env.fs i = .ok (V, some P) := by
    rintro i V P ⟨⟨f, f1, f2⟩, ⟨g, g1, g2⟩⟩
    unfold FileSource.dataForStep
    simp [f1, f2, g1, g2, hd.fresh]
  have shape : ∀ i ≤ s.snapshotFiles.length, ∃ s' : HighPerf Fl, s'.gridShape = [nx, ny] ∧
      (Source.file s).updated env (.highPerf (HighPerf.fresh [nx, ny])) i = (.highPerf s', none) := by
    intro i
    induction i with
    | zero => exact fun _ => ⟨_, rfl, rfl⟩
    | succ i ih =>
      intro hi
      obtain ⟨s', h1, h2⟩ := ih (by omega)
      obtain ⟨V, P, a1, a2, a3, a4, -⟩ := hd.data i (by omega)
      obtain ⟨s2, x, y, b1, b2, -⟩ := upd s' V P h1 a2 a3 a4
      refine ⟨s2, b2, ?_⟩
      simp only [Source.updated, h2, Source.updateInterp, dataOf i V P a1, AnyInterp.update, b1]
  have : Nonempty (NDArray Fl) := ⟨⟨[], fun _ => 0⟩⟩
  choose! V P a1 a2 a3 a4 a5 using hd.data
  refine ⟨fun j c a b => (V j).get [c, a + nx * b], fun j hj => ?_⟩
  obtain ⟨s', h1, h2⟩ := shape j hj.le
  obtain ⟨s2, x, y, b1, -, b3, b4, ⟨x1, x2, x3⟩, y1, y2, y3⟩ :=
    upd s' (V j) (P j) h1 (a2 j hj) (a3 j hj) (a4 j hj)
  have hu : (Source.file s).updated env (.highPerf (HighPerf.fresh [nx, ny])) (j + 1) =
      (.highPerf s2, none) := by
    simp only [Source.updated, h2, Source.updateInterp, dataOf j _ _ (a1 j hj), AnyInterp.update, b1]
  rw [hu]
  refine ⟨a5 j hj, rfl, fun R pos hp hS => ?_⟩
  have call : ∀ (it : Interp Fl) (c : Fin 2),
      it.axes = [⟨xs 0, some (step64 nx xs)⟩, ⟨ys 0, some (step64 ny ys)⟩] →
      it.v.shape = [nx, ny] →
      (∀ i k, i < nx → k < ny → it.v.get [i, k] = (V j).get [c, i + nx * k]) →
      it.call env.m R 2 (fun r c => pos.get [r, c]) (some R) = .ok ((List.range R).map fun r =>
        bilinear64 nx ny xs ys (fun c a b => (V j).get [c, a + nx * b]) (rowOf pos 2 r) c) := by
    intro it c i1 i2 i3
    refine interp_call_2d i1 i2 fun r hr => ?_
    exact value64 hm hd.x hd.y i2 (f := fun c a b => (V j).get [c, a + nx * b]) (c := c) i3
      (z := rowOf pos 2 r) (hS r hr).1 (hS r hr).2
  obtain ⟨out, o1, o2, o3⟩ := highPerf_calls_2d env.junk b3 b4 hp
    (call x 0 x1 x2 x3) (call y 1 y1 y2 y3)
  refine ⟨out, o1, o2, fun r hr => ?_⟩
  funext c
  fin_cases c
  · exact (o3 r hr).1
  · exact (o3 r hr).2

/-- A node next to a point. -/
theorem Nodes64.near {n : ℕ} {xs : ℕ → Fl} {dx ζ : ℝ} (h : Nodes64 n xs dx ζ) {x q : ℝ} {a : ℕ}
    (ha : a < n) (hq : |q - (x - (xs 0).re) / dx| ≤ 2 ^ (-19 : ℤ)) (hqa : |q - a| ≤ 1) :
    |(xs a).re - x| ≤ (1 + 2 ^ (-19 : ℤ)) * dx + ζ := by
  have hd : 0 < dx := lt_of_lt_of_le (by positivity) h.normal
  have h1 := h.uniform a ha
  have h2 : |(a : ℝ) - (x - (xs 0).re) / dx| ≤ 1 + 2 ^ (-19 : ℤ) := by
    have := abs_sub_le (a : ℝ) q ((x - (xs 0).re) / dx)
    rw [abs_sub_comm (a : ℝ) q] at this
    linarith
  have h3 : |(xs 0).re + a * dx - x| ≤ (1 + 2 ^ (-19 : ℤ)) * dx := by
    rw [show (xs 0).re + a * dx - x = ((a : ℝ) - (x - (xs 0).re) / dx) * dx by field_simp; ring,
      abs_mul, abs_of_pos hd]
    exact mul_le_mul_of_nonneg_right h2 hd.le
  have := abs_sub_le (xs a).re ((xs 0).re + a * dx) x
  linarith

/-- Fraction of a cell. -/
theorem frac64 {q : Fl} {n i : ℕ} (hn : (n : ℤ) < intLim) (hi : i + 1 < n) (h0 : (i : ℝ) ≤ q.re)
    (h1 : q.re < i + 1) : |(q - ((i : ℤ) : Fl)).re - (q.re - i)| ≤ uR + ηR := by
  have e : (((i : ℤ) : Fl)).re = i := by
    have := re_natCast (n := i) (by omega)
    rw [← this]
    show (((rne ((i : ℤ) : ℚ)) : ℚ) : ℝ) = ((rne (i : ℚ) : ℚ) : ℝ)
    rw [Int.cast_natCast]
  have h2 := Fl.re_sub q ((i : ℤ) : Fl)
  rw [e, abs_of_nonneg (by linarith : 0 ≤ q.re - i)] at h2
  have : uR * (q.re - i) ≤ uR * 1 := mul_le_mul_of_nonneg_left (by linarith) uR_pos.le
  linarith

theorem bilinear64_error {v : (Fin 2 → ℝ) → Fin 2 → ℝ} {nx ny : ℕ} {xs ys : ℕ → Fl}
    {dx dy ζ ν L B : ℝ} (hx : Nodes64 nx xs dx ζ) (hy : Nodes64 ny ys dy ζ) (hL0 : 0 ≤ L)
    (hL : ∀ w ∈ Rect64 nx ny xs ys, ∀ w' ∈ Rect64 nx ny xs ys, ‖v w - v w'‖ ≤ L * ‖w - w'‖)
    {f : ℕ → ℕ → ℕ → Fl}
    (hf : ∀ a < nx, ∀ b < ny, ∀ c : Fin 2, |(f c a b).re - v ![(xs a).re, (ys b).re] c| ≤ ν)
    {y : Fin 2 → ℝ} (hyR : y ∈ Rect64 nx ny xs ys) (hB : ‖v y‖ ≤ B) {z : Fin 2 → Fl}
    (zx : OnAxis64 nx xs dx (z 0).re) (zy : OnAxis64 ny ys dy (z 1).re) :
    ‖reVec (bilinear64 nx ny xs ys f z) - v y‖ ≤
      (1 + 2 ^ (-47 : ℤ)) * (ν + L * ((1 + 2 ^ (-19 : ℤ)) * max dx dy + ζ)) + 2 ^ (-47 : ℤ) * B +
        2 ^ (-1069 : ℤ) + (1 + 2 ^ (-47 : ℤ)) * L * ‖reVec z - y‖ := by
  obtain ⟨-, i, a1, a2, a3, a4, a5⟩ := hx.cell zx
  obtain ⟨-, j, b1, b2, b3, b4, b5⟩ := hy.cell zy
  set p := coord64 nx xs (z 0) with hp
  set q := coord64 ny ys (z 1) with hq
  set M := (1 + 2 ^ (-19 : ℤ)) * max dx dy + ζ with hM
  have hd : 0 < dx := lt_of_lt_of_le (by positivity) hx.normal
  have hd' : 0 < dy := lt_of_lt_of_le (by positivity) hy.normal
  have hζ : 0 ≤ ζ := (abs_nonneg _).trans (hx.uniform 0 (by have := hx.two; omega))
  have hM0 : 0 ≤ M := by
    have : 0 < max dx dy := lt_max_of_lt_left hd
    positivity
  have hν : 0 ≤ ν := (abs_nonneg _).trans (hf 0 (by have := hx.two; omega) 0
    (by have := hy.two; omega) 0)
  have hB0 : 0 ≤ B := (norm_nonneg _).trans hB
  have node : ∀ a b, a < nx → b < ny → |p.re - a| ≤ 1 → |q.re - b| ≤ 1 → ∀ c : Fin 2,
      |(f c a b).re - v y c| ≤ ν + L * (M + ‖reVec z - y‖) := by
    intro a b ha hb h1 h2 c
    have n1 := hx.near ha a5 h1
    have n2 := hy.near hb b5 h2
    set w : Fin 2 → ℝ := ![(xs a).re, (ys b).re] with hw
    have hwR : w ∈ Rect64 nx ny xs ys :=
      ⟨(hx.between a ha).1, (hx.between a ha).2, (hy.between b hb).1, (hy.between b hb).2⟩
    have hwz : ‖w - reVec z‖ ≤ M := by
      rw [pi_norm_le_iff_of_nonneg hM0]
      intro c
      fin_cases c
      · refine n1.trans (add_le_add_left ?_ ζ)
        exact mul_le_mul_of_nonneg_left (le_max_left _ _) (by positivity)
      · refine n2.trans (add_le_add_left ?_ ζ)
        exact mul_le_mul_of_nonneg_left (le_max_right _ _) (by positivity)
    have hwy : ‖w - y‖ ≤ M + ‖reVec z - y‖ := by
      have := norm_add_le (w - reVec z) (reVec z - y)
      rw [sub_add_sub_cancel] at this
      linarith
    have h3 := (norm_le_pi_norm (v w - v y) c).trans ((hL w hwR y hyR).trans
      (mul_le_mul_of_nonneg_left hwy hL0))
    have h4 := abs_sub_le (f c a b).re (v w c) (v y c)
    have h5 := hf a ha b hb c
    have h6 : |v w c - v y c| ≤ L * (M + ‖reVec z - y‖) := h3
    linarith
  have c0 : |p.re - (i : ℕ)| ≤ 1 := by rw [abs_le]; constructor <;> linarith
  have c1 : |p.re - ((i + 1 : ℕ) : ℝ)| ≤ 1 := by
    push_cast; rw [abs_le]; constructor <;> linarith
  have d0 : |q.re - (j : ℕ)| ≤ 1 := by rw [abs_le]; constructor <;> linarith
  have d1 : |q.re - ((j + 1 : ℕ) : ℝ)| ≤ 1 := by
    push_cast; rw [abs_le]; constructor <;> linarith
  have hz := norm_nonneg (reVec z - y)
  rw [pi_norm_le_iff_of_nonneg (by positivity)]
  intro c
  have key := bilin64 (w := v y c) (D := ν + L * (M + ‖reVec z - y‖))
    (a := p.re - i) (b := q.re - j) (by linarith) (by linarith) (by linarith) (by linarith)
    (frac64 hx.lim a2 a3 a4) (frac64 hy.lim b2 b3 b4)
    (node i j (by omega) (by omega) c0 d0 c) (node (i + 1) j a2 (by omega) c1 d0 c)
    (node i (j + 1) (by omega) b2 c0 d1 c) (node (i + 1) (j + 1) a2 b2 c1 d1 c)
  have e : reVec (bilinear64 nx ny xs ys f z) c = (bilin (f c i j) (f c (i + 1) j) (f c i (j + 1))
      (f c (i + 1) (j + 1)) (p - ((i : ℤ) : Fl)) (q - ((j : ℤ) : Fl))).re := by
    unfold reVec bilinear64
    simp only [← hp, ← hq, a1, b1, Int.toNat_natCast]
  show |reVec (bilinear64 nx ny xs ys f z) c - v y c| ≤ _
  rw [e]
  refine key.trans ?_
  have hw : |v y c| ≤ B := (norm_le_pi_norm (v y) c).trans hB
  have hu := mul_le_mul_of_nonneg_left hw uR_pos.le
  have u1 : 64 * uR = 2 ^ (-47 : ℤ) := by unfold uR; norm_num
  have u2 : 64 * ηR = 2 ^ (-1069 : ℤ) := by
    unfold ηR
    rw [show (64 : ℝ) = 2 ^ (6 : ℤ) by norm_num, ← zpow_add₀ (by norm_num)]
    norm_num
  rw [← u1, ← u2]
  nlinarith

/-! ## The theorem -/

/-- **C87 (gridded files, 2-D, binary64).**  The velocities are samples of `v`, each with an error
of at most `ν`, on a grid whose nodes are within `ζ` of equally spaced ones; trajectories stay in
the grid, away from its last row and column.  Then C86 holds with
`ε = (1 + 2^-47) (ν + L ((1 + 2^-19) max(dx, dy) + ζ)) + 2^-47 B + 2^-1069` and the Lipschitz
constant `(1 + 2^-47) L`. -/
theorem C87_gridded_2d {env : Env Fl Val64} {m : Libm} {κ : ℝ} (he : Env64 env m)
    (hc : Target64 env.m) (hm : m.Accurate κ) (hκ0 : 0 ≤ κ) (hκ : κ ≤ 1 / 100) (queue : Bool)
    (k : Kind) {v : ℝ → (Fin 2 → ℝ) → Fin 2 → ℝ} {t0 L L' ε B M r W ρ : ℝ} {s : FileSource Fl}
    {nx ny : ℕ} {xs ys : ℕ → Fl} {dx dy ζ ν : ℝ}
    (hd : Samples64 env.fs s v t0 nx ny xs ys dx dy ζ ν) {n : ℕ}
    (hn : s.snapshotFiles.length = n) (hn2 : 2 ≤ n) {h : Fl} (hh : s.timestep = h)
    (hh0 : 2 ^ (-500 : ℤ) ≤ |h.re|) (hT : ((n : ℝ) - 1) * |h.re| ≤ 2 ^ 999) (hr : 0 ≤ r)
    (hL0 : 0 ≤ L) (hL' : L' = (1 + 2 ^ (-47 : ℤ)) * L)
    (hε : ε = (1 + 2 ^ (-47 : ℤ)) * (ν + L * ((1 + 2 ^ (-19 : ℤ)) * max dx dy + ζ)) +
      2 ^ (-47 : ℤ) * B + 2 ^ (-1069 : ℤ))
    (hρ : ρ = stepRounding W (B + ε + L' * r) |h.re|)
    (small : SmallSteps (effError ε L' ρ h.re) L' B M h.re n r) {N : ℕ} {seed : NDArray Fl}
    (hs : seed.shape = [4 * N, 2]) {P : Particles Fl} (hp : mkParticles seed = .ok P)
    (hP : readSeedParticles env.fs s.particleFile = .ok P) (X : ℕ → Fin 4 → ℝ → Fin 2 → ℝ)
    (hX : ∀ i < N, ∀ b, Along v t0 h.re n B M (X i b) ∧
      X i b t0 = reVec (groupOf seed 4 N 2 i b) ∧
      ∀ t ∈ uIcc t0 (t0 + n * h.re), ‖X i b t‖ + r ≤ W)
    (hL : ∀ j < n, ∀ w ∈ Rect64 nx ny xs ys, ∀ w' ∈ Rect64 nx ny xs ys,
      ‖v (t0 + j * h.re) w - v (t0 + j * h.re) w'‖ ≤ L * ‖w - w'‖)
    (hin : ∀ i < N, ∀ b, ∀ j < n, ∀ z : Fin 2 → ℝ, ‖z - X i b (t0 + j * h.re)‖ ≤ r →
      OnAxis64 nx xs dx (z 0) ∧ OnAxis64 ny ys dy (z 1))
    (Δx Δy : ℕ → ℝ)
    (hΔ : ∀ i < N, Δx i = (groupOf seed 4 N 2 i 1 0).re - (groupOf seed 4 N 2 i 0 0).re ∧
      Δy i = (groupOf seed 4 N 2 i 2 1).re - (groupOf seed 4 N 2 i 3 1).re ∧
      2 ^ (-500 : ℤ) ≤ |Δx i| ∧ 2 ^ (-500 : ℤ) ≤ |Δy i|)
    (D : ℕ → Matrix (Fin 2) (Fin 2) ℝ)
    (hD : ∀ i < N, centralDiff2 (fun b => X i b (t0 + n * h.re))
      (fun b => reVec (groupOf seed 4 N 2 i b)) = .ok (D i))
    (σ b : ℕ → ℝ) (hb : ∀ i, b i = 41 / 10 * posError (effError ε L' ρ h.re) L' B M h.re n *
      (1 / |Δx i| + 1 / |Δy i|) + 2 ^ (-53 : ℤ) * (1 + 16 * σ i))
    (hσ : ∀ i < N, IsMaxStretch (D i) (σ i) ∧ b i + 2 ^ (-200 : ℤ) ≤ σ i) :
    ∃ Λ : ℕ → Val64, ((⟨.file s, .highPerf (HighPerf.fresh [nx, ny]), .fresh k⟩ : Solver Fl).run env
        queue none).result = .ok (some ((List.range N).map Λ)) ∧
      ∀ i < N,
        (Λ i = .nan ∨ (Λ i).Within (1 / (((n : ℝ) - 1) * |h.re|) * Real.log (σ i))
          (1 / (((n : ℝ) - 1) * |h.re|) * (2 ^ (-22 : ℤ) + 102 / 100 * (b i / (σ i - b i)) +
            (κ + 2 ^ (-50 : ℤ)) * |Real.log (σ i)|))) ∧
        (|(D i).det| + b i * σ i + b i ^ 2 ≤ (1 - 2 ^ (-22 : ℤ)) * (σ i - b i) ^ 2 →
          Λ i ≠ .nan) ∧
        (|(D i).det| + b i * σ i + b i ^ 2 ≤ 1 / 2 * (σ i - b i) ^ 2 →
          (Λ i).Within (1 / (((n : ℝ) - 1) * |h.re|) * Real.log (σ i))
            (1 / (((n : ℝ) - 1) * |h.re|) * (2 ^ (-45 : ℤ) + 102 / 100 * (b i / (σ i - b i)) +
              (κ + 2 ^ (-50 : ℤ)) * |Real.log (σ i)|))) := by
  obtain ⟨f, hf⟩ := samples_updated_64 hc hd
  have hν : 0 ≤ ν := (abs_nonneg _).trans ((hf 0 (by omega)).1 0 (by have := hd.x.two; omega) 0
    (by have := hd.y.two; omega) 0)
  have hζ : 0 ≤ ζ := (abs_nonneg _).trans (hd.x.uniform 0 (by have := hd.x.two; omega))
  have hdx : 0 < max dx dy := lt_max_of_lt_left (lt_of_lt_of_le (by positivity) hd.x.normal)
  have hε0 : 0 ≤ ε := by
    have := small.speed
    rw [hε]
    positivity
  have hX0 : ∀ i < N, ∀ b, ∀ j < n, X i b (t0 + j * h.re) ∈ Rect64 nx ny xs ys := by
    intro i hi b j hj
    obtain ⟨⟨a1, a2⟩, ⟨a3, a4⟩⟩ := hin i hi b j hj _ (by rw [sub_self, norm_zero]; exact hr)
    have p1 : 0 ≤ (2 : ℝ) ^ (-50 : ℤ) * nx * dx :=
      mul_nonneg (by positivity) (le_trans (by positivity) hd.x.normal)
    have p2 : 0 ≤ (2 : ℝ) ^ (-50 : ℤ) * ny * dy :=
      mul_nonneg (by positivity) (le_trans (by positivity) hd.y.normal)
    exact ⟨a1, by linarith, a3, by linarith⟩
  refine C86_binary64_2d (src := .file s) he hm hκ0 hκ queue k hn hn2 hh hh0 hT hε0 hr hρ small hs
    hp hP X hX (I0 := .highPerf (HighPerf.fresh [nx, ny])) rfl rfl
    (fun i hi => (hf i (by omega)).2.1) (fun j => bilinear64 nx ny xs ys (f j)) _
    (fun j hj => (hf j (by omega)).2.2 (4 * N))
    (fun i hi b j hj z hz => ⟨hin i hi b j hj _ hz, ?_⟩) Δx Δy hΔ D hD σ b hb hσ
  have hf' := (hf j (by omega)).1
  rw [hh] at hf'
  rw [hε, hL']
  exact bilinear64_error hd.x hd.y hL0 (hL j hj) hf' (hX0 i hi b j hj)
    ((hX i hi b).1.speed _ (mem_times hj.le)) (hin i hi b j hj _ hz).1 (hin i hi b j hj _ hz).2

end Verif
