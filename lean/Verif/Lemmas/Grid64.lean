import Verif.Lemmas.Jac64

/-!
# The 2-D grid interpolator in binary64

Objects built from a coordinate listing, index coordinates, the bilinear kernel.
-/

namespace Verif

open Matrix Set

/-! ## The objects, for any scalars -/

section objects
variable {K : Type}

/-- Objects built in 2-D from the axes of the coordinate rows. -/
theorem build_axes_2d [Sub K] [Div K] [NatCast K] [Min K] [Max K] {nx ny : ℕ} {v p : NDArray K}
    {ax ay : Axis K} (hp : p.shape = [2, nx * ny]) (hv : v.shape = [2, nx * ny])
    (hx : ∀ a : NDArray K, a.toList = ((List.range (nx * ny)).map fun q => p.get [0, q]) →
      axisOf a nx = .ok ax)
    (hy : ∀ a : NDArray K, a.toList = ((List.range (nx * ny)).map fun q => p.get [1, q]) →
      axisOf a ny = .ok ay) :
    ∃ x y : Interp K, HighPerf.build [nx, ny] v p = .ok (x, y, none) ∧
      (x.axes = [ax, ay] ∧ x.v.shape = [nx, ny] ∧
        ∀ i j, i < nx → j < ny → x.v.get [i, j] = v.get [0, i + nx * j]) ∧
      y.axes = [ax, ay] ∧ y.v.shape = [nx, ny] ∧
        ∀ i j, i < nx → j < ny → y.v.get [i, j] = v.get [1, i + nx * j] := by
  have hprod : [nx, ny].prod = nx * ny := by simp
  have hr : ∃ co, p.reshapeC [2, nx, ny] = .ok co := by
    unfold NDArray.reshapeC
    rw [if_pos (by rw [hp]; simp)]
    exact ⟨_, rfl⟩
  obtain ⟨co, hco⟩ := hr
  have hw : ∃ w, v.reshapeF [2, nx, ny] = .ok w ∧ w.shape = [2, nx, ny] ∧
      ∀ idx, w.get idx = v.get (decF v.shape (encF [2, nx, ny] idx)) := by
    unfold NDArray.reshapeF
    rw [if_pos (by rw [hv]; simp)]
    exact ⟨_, rfl, rfl, fun _ => rfl⟩
  obtain ⟨w, hw, hws, hwg⟩ := hw
  have l0 := coords_row_toList (gs := [nx, ny]) (d := 2) (c := 0) (by rw [hp, hprod]) hco (by omega)
  have l1 := coords_row_toList (gs := [nx, ny]) (d := 2) (c := 1) (by rw [hp, hprod]) hco (by omega)
  rw [hprod] at l0 l1
  have e0 := hx _ l0
  have e1 := hy _ l1
  refine ⟨⟨w.row 0, [ax, ay]⟩, ⟨w.row 1, [ax, ay]⟩, ?_, ⟨rfl, ?_, ?_⟩, rfl, ?_, ?_⟩
  · unfold HighPerf.build
    simp only [List.length_cons, List.length_nil]
    rw [show (0 + 1 + 1 : ℕ) = 2 from rfl, hco]
    simp only [hw, e0, e1]
  · simp [NDArray.row, hws]
  · intro i j hi hj
    simp only [NDArray.row, hwg]
    exact reshapeF_2d hv (by omega) hi hj
  · simp [NDArray.row, hws]
  · intro i j hi hj
    simp only [NDArray.row, hwg]
    exact reshapeF_2d hv (by omega) hi hj

/-- `interpolate` in 2-D when both objects deliver values. -/
theorem highPerf_calls_2d [Zero K] [One K] [Add K] [Sub K] [Mul K] [Div K] [DecidableEq K]
    {m : CMachine K} (junk : List ℕ → K) {s : HighPerf K} {x y : Interp K} (hix : s.ix = some x)
    (hiy : s.iy = some y) {q : NDArray K} {n : ℕ} (hq : q.shape = [n, 2]) {u v : ℕ → K}
    (cx : x.call m n 2 (fun r c => q.get [r, c]) (some n) = .ok ((List.range n).map u))
    (cy : y.call m n 2 (fun r c => q.get [r, c]) (some n) = .ok ((List.range n).map v)) :
    ∃ out, (s.interpolate m junk q).2 = .ok out ∧ out.shape = [n, 2] ∧
      ∀ r < n, out.get [r, 0] = u r ∧ out.get [r, 1] = v r := by
  have hu : (s.ensureBuffers n 2).uLen = some n := by
    unfold HighPerf.ensureBuffers; split
    · assumption
    · simp
  have hx' : (s.ensureBuffers n 2).ix = some x := by
    unfold HighPerf.ensureBuffers; split <;> simp [hix]
  have hy' : (s.ensureBuffers n 2).iy = some y := by
    unfold HighPerf.ensureBuffers; split <;> simp [hiy]
  unfold HighPerf.interpolate
  rw [hq]
  simp only [if_true, hu, hx', hy']
  rw [cx]
  simp only
  rw [cy]
  refine ⟨_, rfl, hq, fun r hr => ?_⟩
  have col : ∀ (w : ℕ → K) (a : K), listCol ((List.range n).map w) a r = w r := by
    intro w a
    simp [listCol, hr]
  exact ⟨col u _, col v _⟩

/-- One object called in 2-D. -/
theorem interp_call_2d [Zero K] [One K] [Add K] [Sub K] [Mul K] [Div K] [DecidableEq K]
    {m : CMachine K} {it : Interp K} {ax ay : Axis K} {nx ny n : ℕ} (ha : it.axes = [ax, ay])
    (hs : it.v.shape = [nx, ny]) {t : ℕ → ℕ → K} {u : ℕ → K}
    (h : ∀ r < n, interp2dAt m it.v nx ny (ax.index (t r 0)) (ay.index (t r 1)) = .ok (u r)) :
    it.call m n 2 t (some n) = .ok ((List.range n).map u) := by
  unfold Interp.call
  rw [ha]
  simp only [List.length_cons, List.length_nil, List.zipIdx_cons, List.zipIdx_nil,
    List.map_cons, List.map_nil]
  rw [if_neg (by omega)]
  unfold interp2dVec
  rw [hs]
  simp only [ne_eq, not_true_eq_false, List.length_map, List.length_range, if_false]
  rw [pyMap_map, pyMap_ok (g := u)]
  intro r hr
  exact h r (List.mem_range.1 hr)

end objects

/-! ## Axes -/

theorem Fl.ext_val {a b : Fl} (h : a.val = b.val) : a = b := by
  cases a; cases b; simp_all

theorem Fl.min_eq (a b : Fl) : min a b = if a.val ≤ b.val then a else b := rfl
theorem Fl.max_eq (a b : Fl) : max a b = if a.val ≤ b.val then b else a := rfl

theorem foldl_min64 {m : Fl} : ∀ (l : List Fl) (x : Fl), (∀ y ∈ x :: l, m.val ≤ y.val) →
    m ∈ x :: l → l.foldl min x = m := by
  intro l
  induction l with
  | nil => intro x h hm; simp at hm; simp [hm]
  | cons a l ih =>
    intro x h hm
    simp only [List.foldl_cons]
    have hx := h x (by simp)
    have ha := h a (by simp)
    apply ih
    · intro y hy
      rcases List.mem_cons.1 hy with rfl | hy
      · rw [Fl.min_eq]; split <;> assumption
      · exact h y (by simp [hy])
    · rw [Fl.min_eq]
      rcases List.mem_cons.1 hm with rfl | hm
      · rw [if_pos ha]; simp
      · rcases List.mem_cons.1 hm with rfl | hm
        · split
          · rw [Fl.ext_val (le_antisymm hx (by assumption))]; simp
          · simp
        · simp [hm]

theorem foldl_max64 {m : Fl} : ∀ (l : List Fl) (x : Fl), (∀ y ∈ x :: l, y.val ≤ m.val) →
    m ∈ x :: l → l.foldl max x = m := by
  intro l
  induction l with
  | nil => intro x h hm; simp at hm; simp [hm]
  | cons a l ih =>
    intro x h hm
    simp only [List.foldl_cons]
    have hx := h x (by simp)
    have ha := h a (by simp)
    apply ih
    · intro y hy
      rcases List.mem_cons.1 hy with rfl | hy
      · rw [Fl.max_eq]; split <;> assumption
      · exact h y (by simp [hy])
    · rw [Fl.max_eq]
      rcases List.mem_cons.1 hm with rfl | hm
      · split
        · rw [Fl.ext_val (le_antisymm (by assumption) ha)]; simp
        · simp
      · rcases List.mem_cons.1 hm with rfl | hm
        · rw [if_pos hx]; simp
        · simp [hm]

/-- The axis of a row of coordinates with smallest value `lo` and largest `hi`. -/
theorem axisOf64 {a : NDArray Fl} {lo hi : Fl} {n : ℕ} (hn : 2 ≤ n) (h0 : lo ∈ a.toList)
    (h1 : hi ∈ a.toList) (h : ∀ y ∈ a.toList, lo.val ≤ y.val ∧ y.val ≤ hi.val) :
    axisOf a n = .ok ⟨lo, some ((hi - lo) / ((n - 1 : ℕ) : Fl))⟩ := by
  have hmin : npMin a = .ok lo := by
    unfold npMin
    cases hl : a.toList with
    | nil => rw [hl] at h0; simp at h0
    | cons x l =>
      rw [hl] at h h0
      simp only [foldl_min64 l x (fun y hy => (h y hy).1) h0]
  have hmax : npMax a = .ok hi := by
    unfold npMax
    cases hl : a.toList with
    | nil => rw [hl] at h1; simp at h1
    | cons x l =>
      rw [hl] at h h1
      simp only [foldl_max64 l x (fun y hy => (h y hy).2) h1]
  unfold axisOf
  simp only [hmin, hmax, Axis.linspace]
  rw [if_neg (by omega)]

/-! ## Index coordinates -/

theorem re_natCast {n : ℕ} (h : (n : ℤ) < intLim) : ((n : ℕ) : Fl).re = n := by
  show (((rne (n : ℚ)) : ℚ) : ℝ) = n
  rw [rne_nat (lt_of_lt_of_le (by exact_mod_cast h) (by norm_num : 2147483648 ≤ 2 ^ 53))]
  simp

theorem Fl.re_le {a b : Fl} : a.re ≤ b.re ↔ a.val ≤ b.val := Rat.cast_le

theorem Fl.re_nonneg {a : Fl} : 0 ≤ a.re ↔ 0 ≤ a.val := Rat.cast_nonneg

theorem re_sub_nonneg {a b : Fl} (h : b.re ≤ a.re) : 0 ≤ (a - b).re :=
  Fl.re_nonneg.2 (rne_nonneg (sub_nonneg.2 (Fl.re_le.1 h)))

theorem re_div_nonneg {a b : Fl} (ha : 0 ≤ a.re) (hb : 0 ≤ b.re) : 0 ≤ (a / b).re :=
  Fl.re_nonneg.2 (rne_nonneg (div_nonneg (Fl.re_nonneg.1 ha) (Fl.re_nonneg.1 hb)))

/-- The spacing of an axis. -/
theorem delta64 {lo hi : Fl} {n : ℕ} {dx : ℝ} (hn : 2 ≤ n) (ln : (n : ℤ) < intLim)
    (hdx : hi.re - lo.re = ((n : ℝ) - 1) * dx) (h0 : 2 ^ (-500 : ℤ) ≤ dx) :
    |((hi - lo) / ((n - 1 : ℕ) : Fl)).re - dx| ≤ 21 / 10 * (uR * dx) := by
  have hpos : (0 : ℝ) < 2 ^ (-500 : ℤ) := by positivity
  have hd : 0 < dx := hpos.trans_le h0
  have hη := eta_le (a := dx) (by rwa [abs_of_pos hd])
  rw [abs_of_pos hd] at hη
  have hN : (1 : ℝ) ≤ (n : ℝ) - 1 := by
    have : (2 : ℝ) ≤ n := by exact_mod_cast hn
    linarith
  have hc : ((n - 1 : ℕ) : Fl).re = (n : ℝ) - 1 := by
    rw [re_natCast (by omega)]
    push_cast [Nat.cast_sub (by omega : 1 ≤ n)]
    ring
  have e1 := Fl.re_sub hi lo
  rw [hdx, abs_of_nonneg (mul_nonneg (by linarith) hd.le : 0 ≤ ((n : ℝ) - 1) * dx)] at e1
  have e2 := Fl.re_div (hi - lo) ((n - 1 : ℕ) : Fl)
  rw [hc] at e2
  have e3 : |(hi - lo).re / ((n : ℝ) - 1) - dx| ≤ uR * dx + ηR := by
    rw [show (hi - lo).re / ((n : ℝ) - 1) - dx =
      ((hi - lo).re - ((n : ℝ) - 1) * dx) / ((n : ℝ) - 1) by field_simp, abs_div,
      abs_of_pos (by linarith : (0 : ℝ) < (n : ℝ) - 1), div_le_iff₀ (by linarith)]
    have := mul_le_mul_of_nonneg_left hN ηR_pos.le
    linarith
  have e4 := round_near e2 e3 (le_of_eq (abs_of_pos hd))
  have hu : 0 < uR * dx := mul_pos uR_pos hd
  have e5 : uR * (dx + (uR * dx + ηR)) ≤ 1 / 1000 * (uR * dx) + uR * dx := by
    have h1 : uR * (uR * dx + ηR) ≤ 1 / 10 ^ 15 * (2 * (uR * dx)) :=
      mul_le_mul uR_le (by linarith) (by linarith [ηR_pos]) (by norm_num)
    linarith
  linarith

/-- The index coordinate of a point to the right of the first node: not negative, and known up to a
relative error. -/
theorem index64_rel {lo hi x : Fl} {n : ℕ} {dx : ℝ} (hn : 2 ≤ n) (ln : (n : ℤ) < intLim)
    (hdx : hi.re - lo.re = ((n : ℝ) - 1) * dx) (h0 : 2 ^ (-500 : ℤ) ≤ dx) (hx : lo.re ≤ x.re) :
    (hi - lo) / ((n - 1 : ℕ) : Fl) ≠ 0 ∧
      0 ≤ ((x - lo) / ((hi - lo) / ((n - 1 : ℕ) : Fl))).re ∧
      |((x - lo) / ((hi - lo) / ((n - 1 : ℕ) : Fl))).re - (x.re - lo.re) / dx| ≤
        5 * (uR * ((x.re - lo.re) / dx)) + 1 / 10 * uR := by
  have hpos : (0 : ℝ) < 2 ^ (-500 : ℤ) := by positivity
  have hd : 0 < dx := hpos.trans_le h0
  have hη := eta_le (a := dx) (by rwa [abs_of_pos hd])
  have hηu := eta_le_u
  rw [abs_of_pos hd] at hη
  have hδ := delta64 hn ln hdx h0
  set δ := (hi - lo) / ((n - 1 : ℕ) : Fl)
  have hu : uR * dx ≤ 1 / 10 ^ 6 * dx :=
    mul_le_mul_of_nonneg_right (uR_le.trans (by norm_num)) hd.le
  have hδ0 : 999 / 1000 * dx ≤ δ.re := by linarith [(abs_le.1 hδ).1]
  have hδp : 0 < δ.re := by linarith
  refine ⟨fun h => ?_, re_div_nonneg (re_sub_nonneg hx) hδp.le, ?_⟩
  · rw [h] at hδp
    have : (0 : Fl).re = 0 := by show ((0 : ℚ) : ℝ) = 0; norm_num
    linarith
  set q := (x.re - lo.re) / dx with hq
  have hX : x.re - lo.re = q * dx := by rw [hq]; field_simp
  have hq0 : 0 ≤ q := div_nonneg (by linarith) hd.le
  have e1 := Fl.re_sub x lo
  rw [hX, abs_of_nonneg (mul_nonneg hq0 hd.le : 0 ≤ q * dx)] at e1
  have e2 := Fl.re_div (x - lo) δ
  have huq : 0 ≤ uR * q := mul_nonneg uR_pos.le hq0
  have e3 : |(x - lo).re / δ.re - q| ≤ 32 / 10 * (uR * q) + 1 / 100 * uR := by
    rw [show (x - lo).re / δ.re - q =
      ((x - lo).re - q * dx - q * (δ.re - dx)) / δ.re by field_simp; ring, abs_div,
      abs_of_pos hδp, div_le_iff₀ hδp]
    have a1 : |q * (δ.re - dx)| ≤ q * (21 / 10 * (uR * dx)) := by
      rw [abs_mul, abs_of_nonneg hq0]
      exact mul_le_mul_of_nonneg_left hδ hq0
    have a2 := abs_sub ((x - lo).re - q * dx) (q * (δ.re - dx))
    have a3 : (32 / 10 * (uR * q) + 1 / 100 * uR) * (999 / 1000 * dx) ≤
        (32 / 10 * (uR * q) + 1 / 100 * uR) * δ.re :=
      mul_le_mul_of_nonneg_left hδ0 (by linarith [uR_pos])
    have a4 : 0 ≤ uR * q * dx := mul_nonneg huq hd.le
    have a5 : 0 < uR * dx := mul_pos uR_pos hd
    nlinarith
  have e4 := round_near e2 e3 (le_of_eq (abs_of_nonneg hq0))
  have e5 : uR * (q + (32 / 10 * (uR * q) + 1 / 100 * uR)) ≤ uR * q + 1 / 100 * (uR * q) +
      1 / 100 * uR := by
    have h1 : uR * (32 / 10 * (uR * q) + 1 / 100 * uR) ≤
        1 / 10 ^ 6 * (32 / 10 * (uR * q) + 1 / 100 * uR) :=
      mul_le_mul_of_nonneg_right (uR_le.trans (by norm_num)) (by linarith [uR_pos])
    linarith [uR_pos]
  linarith [uR_pos]

/-- The index coordinate of a point of the axis: not negative, and known up to `2^-50 n`. -/
theorem index64 {lo hi x : Fl} {n : ℕ} {dx : ℝ} (hn : 2 ≤ n) (ln : (n : ℤ) < intLim)
    (hdx : hi.re - lo.re = ((n : ℝ) - 1) * dx) (h0 : 2 ^ (-500 : ℤ) ≤ dx) (hx : lo.re ≤ x.re)
    (hx' : x.re ≤ hi.re) :
    (hi - lo) / ((n - 1 : ℕ) : Fl) ≠ 0 ∧
      0 ≤ ((x - lo) / ((hi - lo) / ((n - 1 : ℕ) : Fl))).re ∧
      |((x - lo) / ((hi - lo) / ((n - 1 : ℕ) : Fl))).re - (x.re - lo.re) / dx| ≤
        2 ^ (-50 : ℤ) * n := by
  have hpos : (0 : ℝ) < 2 ^ (-500 : ℤ) := by positivity
  have hd : 0 < dx := hpos.trans_le h0
  obtain ⟨h1, h2, h3⟩ := index64_rel hn ln hdx h0 hx
  refine ⟨h1, h2, h3.trans ?_⟩
  set q := (x.re - lo.re) / dx with hq
  have hqn : q ≤ n - 1 := by
    rw [hq, div_le_iff₀ hd]
    linarith
  have e6 : uR * q ≤ uR * (n - 1) := mul_le_mul_of_nonneg_left hqn uR_pos.le
  have e7 : uR * 2 ≤ uR * n := mul_le_mul_of_nonneg_left (by exact_mod_cast hn) uR_pos.le
  have e8 : (2 : ℝ) ^ (-50 : ℤ) * n = 8 * (uR * n) := by unfold uR; norm_num; ring
  rw [e8]
  linarith [uR_pos]

/-- The cell of an index coordinate. -/
theorem cell64 {q : Fl} {n : ℕ} (h0 : 0 ≤ q.re) (h1 : q.re < (n : ℝ) - 1) :
    ∃ i : ℕ, ⌊q.val⌋ = (i : ℤ) ∧ i + 1 < n ∧ (i : ℝ) ≤ q.re ∧ q.re < i + 1 := by
  have a0 : 0 ≤ q.val := Fl.re_nonneg.1 h0
  obtain ⟨i, hi⟩ := Int.eq_ofNat_of_zero_le (Int.floor_nonneg.2 a0)
  have hle : ((⌊q.val⌋ : ℤ) : ℚ) ≤ q.val := Int.floor_le _
  have hlt : q.val < ((⌊q.val⌋ : ℤ) : ℚ) + 1 := Int.lt_floor_add_one _
  rw [hi] at hle hlt
  have b1 : (i : ℝ) ≤ q.re := by
    have : (((i : ℤ) : ℚ) : ℝ) ≤ (q.val : ℝ) := by exact_mod_cast hle
    simpa [Fl.re] using this
  have b2 : q.re < i + 1 := by
    have : (q.val : ℝ) < ((((i : ℤ) : ℚ) + 1 : ℚ) : ℝ) := by exact_mod_cast hlt
    simpa [Fl.re] using this
  refine ⟨i, hi, ?_, b1, b2⟩
  have : ((i + 1 : ℕ) : ℝ) < n := by push_cast; linarith
  exact_mod_cast this

/-! ## The kernel -/

/-- A product of a value and two weights. -/
theorem term64 {v s t : Fl} {V s' t' : ℝ} (hv : |v.re| ≤ V) (hs : |s.re - s'| ≤ 3 * uR)
    (ht : |t.re - t'| ≤ 3 * uR) (hs0 : 0 ≤ s') (hs1 : s' ≤ 1) (ht0 : 0 ≤ t') (ht1 : t' ≤ 1) :
    |(v * s * t).re - v.re * s' * t'| ≤ 9 * (uR * V) + 3 * ηR := by
  have hV : 0 ≤ V := (abs_nonneg _).trans hv
  have huV : 0 ≤ uR * V := mul_nonneg uR_pos.le hV
  have as : |s'| ≤ 1 := by rw [abs_of_nonneg hs0]; exact hs1
  have at' : |t'| ≤ 1 := by rw [abs_of_nonneg ht0]; exact ht1
  have m1 : |v.re * s.re - v.re * s'| ≤ 3 * (uR * V) := by
    rw [← mul_sub, abs_mul]
    have := mul_le_mul hv hs (abs_nonneg _) hV
    linarith
  have vs : |v.re * s'| ≤ V := by
    rw [abs_mul]
    calc |v.re| * |s'| ≤ V * 1 := mul_le_mul hv as (abs_nonneg _) hV
      _ = V := mul_one V
  have r1 := round_near (Fl.re_mul v s) m1 vs
  have small : uR * (3 * (uR * V)) ≤ 1 / 100 * (uR * V) := by
    have := mul_le_mul_of_nonneg_right (uR_le.trans (by norm_num : _ ≤ (1 / 1000 : ℝ)))
      (by linarith : 0 ≤ 3 * (uR * V))
    linarith
  have r1' : |(v * s).re - v.re * s'| ≤ 401 / 100 * (uR * V) + ηR := by linarith
  have m2 := mul_near r1' ht vs at'
  have cross : (401 / 100 * (uR * V) + ηR) * (3 * uR) ≤ 1 / 100 * (uR * V) + 1 / 100 * ηR := by
    have := mul_le_mul_of_nonneg_left (show 3 * uR ≤ 1 / 1000 by linarith [uR_le])
      (by linarith [ηR_pos] : 0 ≤ 401 / 100 * (uR * V) + ηR)
    linarith [ηR_pos]
  have m2' : |(v * s).re * t.re - v.re * s' * t'| ≤ 703 / 100 * (uR * V) + 102 / 100 * ηR := by
    linarith [ηR_pos]
  have vst : |v.re * s' * t'| ≤ V := by
    rw [abs_mul]
    calc |v.re * s'| * |t'| ≤ V * 1 := mul_le_mul vs at' (abs_nonneg _) hV
      _ = V := mul_one V
  have r2 := round_near (Fl.re_mul (v * s) t) m2' vst
  have small2 : uR * (703 / 100 * (uR * V) + 102 / 100 * ηR) ≤ 1 / 100 * (uR * V) + 1 / 100 * ηR := by
    have := mul_le_mul_of_nonneg_right (uR_le.trans (by norm_num : _ ≤ (1 / 1000 : ℝ)))
      (by linarith [ηR_pos] : 0 ≤ 703 / 100 * (uR * V) + 102 / 100 * ηR)
    linarith [ηR_pos]
  linarith [ηR_pos]

/-- A rounded sum of numbers of size at most `V`. -/
theorem sum64 {a b : Fl} {a' b' V E F : ℝ} (ha : |a.re - a'| ≤ E) (hb : |b.re - b'| ≤ F)
    (hV : |a' + b'| ≤ V) (hE : uR * (E + F) ≤ 1 / 100 * (uR * V) + ηR) :
    |(a + b).re - (a' + b')| ≤ E + F + 101 / 100 * (uR * V) + 2 * ηR := by
  have := round_near (Fl.re_add a b) (add_near ha hb) hV
  linarith

/-- The bilinear kernel: values within `D` of `w`. -/
theorem bilin64 {v00 v10 v01 v11 xd yd : Fl} {w D a b : ℝ} (ha0 : 0 ≤ a) (ha1 : a ≤ 1)
    (hb0 : 0 ≤ b) (hb1 : b ≤ 1) (hx : |xd.re - a| ≤ uR + ηR) (hy : |yd.re - b| ≤ uR + ηR)
    (h00 : |v00.re - w| ≤ D) (h10 : |v10.re - w| ≤ D) (h01 : |v01.re - w| ≤ D)
    (h11 : |v11.re - w| ≤ D) :
    |(bilin v00 v10 v01 v11 xd yd).re - w| ≤ D + 64 * (uR * (|w| + D)) + 64 * ηR := by
  set V := |w| + D with hVd
  have hD : 0 ≤ D := (abs_nonneg _).trans h00
  have hV0 : 0 ≤ V := by positivity
  have bound : ∀ {v : Fl}, |v.re - w| ≤ D → |v.re| ≤ V := by
    intro v h
    have := abs_sub_abs_le_abs_sub v.re w
    linarith
  have hη := eta_le_u
  have one : (1 : Fl).re = 1 := by show ((1 : ℚ) : ℝ) = 1; norm_num
  have co : ∀ {d : Fl} {c : ℝ}, 0 ≤ c → c ≤ 1 → |d.re - c| ≤ uR + ηR →
      |(1 - d).re - (1 - c)| ≤ 3 * uR := by
    intro d c hc0 hc1 h
    have h1 := Fl.re_sub 1 d
    rw [one] at h1
    have h2 : |1 - d.re - (1 - c)| ≤ uR + ηR := by
      rw [show 1 - d.re - (1 - c) = -(d.re - c) by ring, abs_neg]; exact h
    have h3 := round_near h1 h2 (show |1 - c| ≤ 1 by rw [abs_of_nonneg (by linarith)]; linarith)
    have h4 : uR * (uR + ηR) ≤ 1 / 100 * uR := by
      have := mul_le_mul_of_nonneg_left (show uR + ηR ≤ 1 / 100 by linarith [uR_le]) uR_pos.le
      linarith
    linarith [uR_pos]
  have wk : ∀ {d : Fl} {c : ℝ}, |d.re - c| ≤ uR + ηR → |d.re - c| ≤ 3 * uR := fun h => by
    linarith [uR_pos]
  have cx := co ha0 ha1 hx
  have cy := co hb0 hb1 hy
  have t1 := term64 (bound h00) cx cy (by linarith) (by linarith) (by linarith) (by linarith)
  have t2 := term64 (bound h10) (wk hx) cy ha0 ha1 (by linarith) (by linarith)
  have t3 := term64 (bound h01) cx (wk hy) (by linarith) (by linarith) hb0 hb1
  have t4 := term64 (bound h11) (wk hx) (wk hy) ha0 ha1 hb0 hb1
  have w1 : 0 ≤ (1 - a) * (1 - b) := mul_nonneg (by linarith) (by linarith)
  have w2 : 0 ≤ a * (1 - b) := mul_nonneg (by linarith) (by linarith)
  have w3 : 0 ≤ (1 - a) * b := mul_nonneg (by linarith) (by linarith)
  have w4 : 0 ≤ a * b := mul_nonneg (by linarith) (by linarith)
  have wsum : (1 - a) * (1 - b) + a * (1 - b) + (1 - a) * b + a * b = 1 := by ring
  have part : ∀ {v s t : ℝ}, |v| ≤ V → 0 ≤ s * t → |v * s * t| ≤ V * (s * t) := by
    intro v s t hv hp
    rw [mul_assoc, abs_mul, abs_of_nonneg hp]
    exact mul_le_mul_of_nonneg_right hv hp
  have p1 := part (bound h00) w1
  have p2 := part (bound h10) w2
  have p3 := part (bound h01) w3
  have p4 := part (bound h11) w4
  have vsum : V * ((1 - a) * (1 - b)) + V * (a * (1 - b)) + V * ((1 - a) * b) + V * (a * b) = V := by
    rw [← mul_add, ← mul_add, ← mul_add, wsum, mul_one]
  have q1 := mul_nonneg hV0 w1
  have q2 := mul_nonneg hV0 w2
  have q3 := mul_nonneg hV0 w3
  have q4 := mul_nonneg hV0 w4
  have huV : 0 ≤ uR * V := mul_nonneg uR_pos.le hV0
  have tiny : ∀ {E : ℝ}, E ≤ 100 * (uR * V) + 100 * ηR → uR * E ≤ 1 / 100 * (uR * V) + ηR := by
    intro E hE
    have h1 := mul_le_mul_of_nonneg_left hE uR_pos.le
    have h2 := mul_le_mul_of_nonneg_right (uR_le.trans (by norm_num : _ ≤ (1 / 10 ^ 4 : ℝ)))
      (by linarith [ηR_pos] : 0 ≤ 100 * (uR * V) + 100 * ηR)
    linarith [ηR_pos]
  have n1 := abs_add_le (v00.re * (1 - a) * (1 - b)) (v10.re * a * (1 - b))
  have n2 := abs_add_le (v00.re * (1 - a) * (1 - b) + v10.re * a * (1 - b)) (v01.re * (1 - a) * b)
  have n3 := abs_add_le (v00.re * (1 - a) * (1 - b) + v10.re * a * (1 - b) + v01.re * (1 - a) * b)
    (v11.re * a * b)
  have s1 := sum64 t1 t2 (V := V) (by linarith) (tiny (by linarith [ηR_pos]))
  have s2 := sum64 s1 t3 (V := V) (by linarith) (tiny (by linarith [ηR_pos]))
  have s3 := sum64 s2 t4 (V := V) (by linarith) (tiny (by linarith [ηR_pos]))
  have exact : |v00.re * (1 - a) * (1 - b) + v10.re * a * (1 - b) + v01.re * (1 - a) * b +
      v11.re * a * b - w| ≤ D := by
    have e : v00.re * (1 - a) * (1 - b) + v10.re * a * (1 - b) + v01.re * (1 - a) * b +
        v11.re * a * b - w = (v00.re - w) * ((1 - a) * (1 - b)) + (v10.re - w) * (a * (1 - b)) +
        (v01.re - w) * ((1 - a) * b) + (v11.re - w) * (a * b) := by ring
    have pd : ∀ {v p : ℝ}, |v| ≤ D → 0 ≤ p → |v * p| ≤ D * p := by
      intro v p hv hp
      rw [abs_mul, abs_of_nonneg hp]
      exact mul_le_mul_of_nonneg_right hv hp
    have d1 := pd h00 w1
    have d2 := pd h10 w2
    have d3 := pd h01 w3
    have d4 := pd h11 w4
    have dsum : D * ((1 - a) * (1 - b)) + D * (a * (1 - b)) + D * ((1 - a) * b) + D * (a * b) = D := by
      rw [← mul_add, ← mul_add, ← mul_add, wsum, mul_one]
    rw [e]
    have h0 := abs_add_le ((v00.re - w) * ((1 - a) * (1 - b)) + (v10.re - w) * (a * (1 - b)) +
        (v01.re - w) * ((1 - a) * b)) ((v11.re - w) * (a * b))
    have h1 := abs_add_le ((v00.re - w) * ((1 - a) * (1 - b)) + (v10.re - w) * (a * (1 - b)))
      ((v01.re - w) * ((1 - a) * b))
    have h2 := abs_add_le ((v00.re - w) * ((1 - a) * (1 - b))) ((v10.re - w) * (a * (1 - b)))
    linarith
  have fin := abs_sub_le (bilin v00 v10 v01 v11 xd yd).re (v00.re * (1 - a) * (1 - b) +
    v10.re * a * (1 - b) + v01.re * (1 - a) * b + v11.re * a * b) w
  unfold bilin at fin ⊢
  linarith [ηR_pos]

end Verif
