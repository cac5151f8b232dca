import Verif.Lemmas.GridError

/-!
# The error of bilinear and trilinear interpolation changes slowly

The interpolated velocity differs from the velocity by the square of the spacing, and the difference
changes, from point to point, by at most the spacing times the distance.
-/

namespace Verif

open Set

/-! ## One axis -/

/-- Linear interpolation on one axis. -/
noncomputable def axisValue (f : ℕ → ℝ) (q : ℝ) : ℝ :=
  lerp (f (cellOf q)) (f (cellOf q + 1)) (q - cellOf q)

theorem axisValue_sub (f g : ℕ → ℝ) (q : ℝ) :
    axisValue f q - axisValue g q = axisValue (fun i => f i - g i) q := by
  simp only [axisValue, lerp]
  ring

theorem axisValue_near {n : ℕ} {q w b : ℝ} (hq : InCells n q) {f : ℕ → ℝ}
    (h : ∀ i : ℕ, |q - i| ≤ 1 → |f i - w| ≤ b) : |axisValue f q - w| ≤ b := by
  obtain ⟨-, h2, h3⟩ := cell_frac hq
  refine lerp_error (h _ ?_) (h _ ?_) h2 h3
  · rw [abs_le]; constructor <;> linarith
  · push_cast; rw [abs_le]; constructor <;> linarith

theorem cellOf_mono {p q : ℝ} (h : p ≤ q) : cellOf p ≤ cellOf q :=
  Int.toNat_le_toNat (Int.floor_mono h)

/-- The interpolated value changes no faster than the values at the nodes. -/
theorem line_lipschitz {n : ℕ} {p q l : ℝ} (hp : InCells n p) (hq : InCells n q) {f : ℕ → ℝ}
    (h : ∀ i : ℕ, min p q - 1 ≤ i → (i : ℝ) ≤ max p q → |f (i + 1) - f i| ≤ l) :
    |axisValue f p - axisValue f q| ≤ l * |p - q| := by
  wlog hpq : p ≤ q generalizing p q
  · rw [abs_sub_comm, abs_sub_comm p q]
    exact this hq hp (fun i h1 h2 => h i (by rwa [min_comm]) (by rwa [max_comm])) (by linarith)
  rw [min_eq_left hpq, max_eq_right hpq] at h
  obtain ⟨-, p2, p3⟩ := cell_frac hp
  obtain ⟨-, q2, q3⟩ := cell_frac hq
  have hc := cellOf_mono hpq
  rw [abs_sub_comm, abs_sub_comm p q, abs_of_nonneg (by linarith : 0 ≤ q - p)]
  unfold axisValue lerp
  generalize cellOf p = a at *
  generalize cellOf q = b at *
  have ha := h a (by linarith) (by linarith)
  have hb := h b (by have : (a : ℝ) ≤ b := by exact_mod_cast hc
                     linarith) (by linarith)
  rw [abs_le] at ha hb
  rcases hc.eq_or_lt with rfl | hlt
  · rw [abs_le]
    constructor <;> nlinarith
  · -- the nodes in between
    have mid : ∀ m : ℕ, a + 1 + m ≤ b → |f (a + 1 + m) - f (a + 1)| ≤ l * m := by
      intro m
      induction m with
      | zero => simp
      | succ m ih =>
        intro hm
        have i1 := ih (by omega)
        have i2 := h (a + 1 + m) (by push_cast; linarith)
          (by have : ((a + 1 + m : ℕ) : ℝ) ≤ b := by exact_mod_cast (by omega : a + 1 + m ≤ b)
              linarith)
        have e : a + 1 + (m + 1) = a + 1 + m + 1 := by ring
        rw [e]
        rw [abs_le] at *
        push_cast
        constructor <;> linarith
    obtain ⟨m, rfl⟩ : ∃ m, b = a + 1 + m := ⟨b - (a + 1), by omega⟩
    have hm := mid m le_rfl
    push_cast at q2 q3
    rw [abs_le] at *
    push_cast
    constructor <;> nlinarith

/-- A function that is nearly linear in every cell: what the interpolation leaves changes slowly. -/
theorem rest_lipschitz {n : ℕ} {p q a : ℝ} (hp : InCells n p) (hq : InCells n q) {φ : ℝ → ℝ}
    (h : ∀ i : ℕ, min p q - 1 ≤ i → (i : ℝ) ≤ max p q → ∀ s ∈ Icc (i : ℝ) (i + 1),
      ∀ t ∈ Icc (i : ℝ) (i + 1), |φ s - φ t - (s - t) * (φ (i + 1) - φ i)| ≤ a * |s - t|) :
    |φ p - axisValue (fun i => φ i) p - (φ q - axisValue (fun i => φ i) q)| ≤ a * |p - q| := by
  wlog hpq : p ≤ q generalizing p q
  · rw [abs_sub_comm, abs_sub_comm p q]
    exact this hq hp (fun i h1 h2 => h i (by rwa [min_comm]) (by rwa [max_comm])) (by linarith)
  rw [min_eq_left hpq, max_eq_right hpq] at h
  obtain ⟨-, p2, p3⟩ := cell_frac hp
  obtain ⟨-, q2, q3⟩ := cell_frac hq
  have hc := cellOf_mono hpq
  unfold axisValue lerp
  generalize cellOf p = i at *
  generalize cellOf q = j at *
  have hij : (i : ℝ) ≤ j := by exact_mod_cast hc
  have hi := h i (by linarith) (by linarith)
  have hj := h j (by linarith) (by linarith)
  push_cast
  rcases hc.eq_or_lt with rfl | hlt
  · refine (le_of_eq ?_).trans (hi p ⟨by linarith, by linarith⟩ q ⟨by linarith, by linarith⟩)
    congr 1
    ring
  · have hlt' : (i : ℝ) + 1 ≤ j := by exact_mod_cast hlt
    have r1 := hi p ⟨by linarith, by linarith⟩ (i + 1) ⟨by linarith, le_rfl⟩
    have r2 := hj q ⟨by linarith, by linarith⟩ j ⟨le_rfl, by linarith⟩
    have ha : 0 ≤ a := by
      have := hi i ⟨le_rfl, by linarith⟩ (i + 1) ⟨by linarith, le_rfl⟩
      have h1 : |(i : ℝ) - (i + 1)| = 1 := by norm_num
      rw [h1, mul_one] at this
      exact (abs_nonneg _).trans this
    rw [abs_of_nonpos (by linarith : p - (i + 1) ≤ 0)] at r1
    rw [abs_of_nonneg (by linarith : 0 ≤ q - j)] at r2
    rw [abs_of_nonpos (by linarith : p - q ≤ 0)]
    have r3 := abs_sub (φ p - φ (i + 1) - (p - (i + 1)) * (φ (i + 1) - φ i))
      (φ q - φ j - (q - j) * (φ (j + 1) - φ j))
    refine (le_of_eq ?_).trans ((r3.trans (add_le_add r1 r2)).trans ?_)
    · congr 1
      ring
    · nlinarith

/-! ## One more axis -/

/-- Given the errors `E` of the interpolation along the other axes, at the nodes of this one. -/
theorem axis_lipschitz {n : ℕ} {s s' a b c e : ℝ} (hs : InCells n s) (hs' : InCells n s')
    {u u' : ℝ → ℝ} {E E' : ℕ → ℝ}
    (h1 : ∀ k : ℕ, |s - k| ≤ 1 → |u s - u' s - (u k - u' k)| ≤ b)
    (h2 : ∀ k : ℕ, |s - k| ≤ 1 → |E k - E' k| ≤ e)
    (h3 : ∀ k : ℕ, min s s' - 1 ≤ k → (k : ℝ) ≤ max s s' → ∀ x ∈ Icc (k : ℝ) (k + 1),
      ∀ y ∈ Icc (k : ℝ) (k + 1), |u' x - u' y - (x - y) * (u' (k + 1) - u' k)| ≤ a * |x - y|)
    (h4 : ∀ k : ℕ, min s s' - 1 ≤ k → (k : ℝ) ≤ max s s' → |E' (k + 1) - E' k| ≤ c) :
    |u s - axisValue (fun k => u k - E k) s - (u' s' - axisValue (fun k => u' k - E' k) s')| ≤
      b + e + (a + c) * |s - s'| := by
  have r1 : |axisValue (fun k => u k - u' k) s - (u s - u' s)| ≤ b :=
    axisValue_near hs fun k hk => by rw [abs_sub_comm]; exact h1 k hk
  have r2 : |axisValue (fun k => E k - E' k) s - 0| ≤ e :=
    axisValue_near hs fun k hk => by rw [sub_zero]; exact h2 k hk
  have r3 := rest_lipschitz hs hs' h3
  have r4 := line_lipschitz hs hs' h4
  rw [← axisValue_sub] at r1 r2
  rw [← axisValue_sub, ← axisValue_sub]
  rw [abs_le] at *
  constructor <;> linarith

/-! ## The interpolators -/

theorem cellValue2_lines {nx ny : ℕ} {f : ℕ → ℕ → ℝ} {X Y : ℝ} (hX : InCells nx X)
    (hY : InCells ny Y) :
    cellValue2 nx ny f X Y = axisValue (fun j => axisValue (fun i => f i j) X) Y := by
  unfold cellValue2
  rw [if_pos ⟨hX, hY⟩]
  rfl

theorem cellValue3_lines {nx ny nz : ℕ} {f : ℕ → ℕ → ℕ → ℝ} {X Y Z : ℝ} (hX : InCells nx X)
    (hY : InCells ny Y) (hZ : InCells nz Z) :
    cellValue3 nx ny nz f X Y Z =
      axisValue (fun k => axisValue (fun j => axisValue (fun i => f i j k) X) Y) Z := by
  unfold cellValue3
  rw [if_pos ⟨hX, hY, hZ⟩]
  rfl

/-- The nodes and points between and next to `p` and `q`. -/
def Around (p q : ℝ) : Set ℝ := Icc (min p q - 1) (max p q + 1)

theorem around_left (p q : ℝ) : p ∈ Around p q :=
  ⟨by have := min_le_left p q; linarith, by have := le_max_left p q; linarith⟩

theorem around_right (p q : ℝ) : q ∈ Around p q :=
  ⟨by have := min_le_right p q; linarith, by have := le_max_right p q; linarith⟩

theorem around_node {p q : ℝ} {i : ℕ} (h : |p - i| ≤ 1) : (i : ℝ) ∈ Around p q := by
  rw [abs_le] at h
  exact ⟨by have := min_le_left p q; linarith, by have := le_max_left p q; linarith⟩

theorem around_node' {p q : ℝ} {i : ℕ} (h : |q - i| ≤ 1) : (i : ℝ) ∈ Around p q := by
  rw [abs_le] at h
  exact ⟨by have := min_le_right p q; linarith, by have := le_max_right p q; linarith⟩

theorem around_cell {p q : ℝ} {i : ℕ} (h1 : min p q - 1 ≤ i) (h2 : (i : ℝ) ≤ max p q) :
    Icc (i : ℝ) (i + 1) ⊆ Around p q := fun x hx => ⟨h1.trans hx.1, by linarith [hx.2]⟩

/-- Change of a function of two variables along one of them, from one value of the other to
another. -/
def SmallMixed (G : ℝ → ℝ → ℝ) (I J : Set ℝ) (c : ℝ) : Prop :=
  ∀ p ∈ I, ∀ p' ∈ I, ∀ q ∈ J, ∀ q' ∈ J,
    |G p q - G p' q - (G p q' - G p' q')| ≤ c * |p - p'| * |q - q'|

/-- Nearly linear in every cell. -/
def NearLinear (φ : ℝ → ℝ) (I : Set ℝ) (a : ℝ) : Prop :=
  ∀ x ∈ I, ∀ s ∈ I, ∀ t ∈ I, x + 1 ∈ I → s ∈ Icc x (x + 1) → t ∈ Icc x (x + 1) →
    |φ s - φ t - (s - t) * (φ (x + 1) - φ x)| ≤ a * |s - t|

theorem NearLinear.cells {φ : ℝ → ℝ} {p q a : ℝ} (h : NearLinear φ (Around p q) a) :
    ∀ i : ℕ, min p q - 1 ≤ i → (i : ℝ) ≤ max p q → ∀ s ∈ Icc (i : ℝ) (i + 1),
      ∀ t ∈ Icc (i : ℝ) (i + 1), |φ s - φ t - (s - t) * (φ (i + 1) - φ i)| ≤ a * |s - t| := by
  intro i h1 h2 s hs t ht
  have hc := around_cell h1 h2
  exact h i (hc ⟨le_rfl, by linarith⟩) s (hc hs) t (hc ht) (hc ⟨by linarith, le_rfl⟩) hs ht

theorem mixed_unit {x c a b : ℝ} (hc : 0 ≤ c) (ha : |a| ≤ 1) (h : |x| ≤ c * |b| * |a|) :
    |x| ≤ c * |b| :=
  h.trans (mul_le_of_le_one_right (mul_nonneg hc (abs_nonneg b)) ha)

theorem cellValue2_lipschitz {nx ny : ℕ} {G : ℝ → ℝ → ℝ} {p p' q q' a b c : ℝ}
    (hp : InCells nx p) (hp' : InCells nx p') (hq : InCells ny q) (hq' : InCells ny q') (hc : 0 ≤ c)
    (hx : ∀ y ∈ Around q q', NearLinear (fun x => G x y) (Around p p') a)
    (hy : ∀ x ∈ Around p p', NearLinear (fun y => G x y) (Around q q') b)
    (hxy : SmallMixed G (Around p p') (Around q q') c) :
    |G p q - cellValue2 nx ny (fun i j => G i j) p q -
      (G p' q' - cellValue2 nx ny (fun i j => G i j) p' q')| ≤
      (a + c) * |p - p'| + (b + c) * |q - q'| := by
  rw [cellValue2_lines hp hq, cellValue2_lines hp' hq']
  have key := axis_lipschitz hq hq' (u := fun y => G p y) (u' := fun y => G p' y)
    (E := fun j => G p j - axisValue (fun i => G i j) p)
    (E' := fun j => G p' j - axisValue (fun i => G i j) p') (b := c * |p - p'|) (e := a * |p - p'|)
    (a := b) (c := c)
    (fun k hk => mixed_unit hc hk (hxy p (around_left _ _) p' (around_right _ _) q (around_left _ _) k
      (around_node hk)))
    (fun k hk => rest_lipschitz hp hp' (hx k (around_node hk)).cells)
    (hy p' (around_right _ _)).cells
    (fun k h1 h2 => by
      have hk := around_cell h1 h2
      have m1 : ((k : ℕ) : ℝ) ∈ Around q q' := hk ⟨le_rfl, by linarith⟩
      have m2 : ((k + 1 : ℕ) : ℝ) ∈ Around q q' := hk ⟨by push_cast; linarith, by push_cast; linarith⟩
      have := axisValue_near hp' (f := fun i => G i ((k + 1 : ℕ) : ℝ) - G i k) (b := c)
        (w := G p' ((k + 1 : ℕ) : ℝ) - G p' k) fun i hi => by
          have h5 := hxy i (around_node' hi) p' (around_right _ _) _ m2 _ m1
          have e : |((k + 1 : ℕ) : ℝ) - k| = 1 := by push_cast; simp
          rw [e, mul_one] at h5
          have h6 : |(i : ℝ) - p'| ≤ 1 := by rwa [abs_sub_comm]
          refine (le_of_eq ?_).trans (h5.trans (mul_le_of_le_one_right hc h6))
          congr 1
          ring
      rw [← axisValue_sub, abs_sub_comm] at this
      refine (le_of_eq ?_).trans this
      congr 1
      ring)
  simp only [sub_sub_cancel] at key
  refine key.trans (le_of_eq ?_)
  ring

theorem cellValue2_sub {nx ny : ℕ} (f g : ℕ → ℕ → ℝ) (X Y : ℝ) :
    cellValue2 nx ny f X Y - cellValue2 nx ny g X Y = cellValue2 nx ny (fun i j => f i j - g i j) X Y := by
  unfold cellValue2
  split_ifs
  · simp only [lerp]
    ring
  · simp

theorem cellValue3_lipschitz {nx ny nz : ℕ} {G : ℝ → ℝ → ℝ → ℝ}
    {p p' q q' s s' a b e cxy cxz cyz : ℝ} (hp : InCells nx p) (hp' : InCells nx p')
    (hq : InCells ny q) (hq' : InCells ny q') (hs : InCells nz s) (hs' : InCells nz s')
    (hcxy : 0 ≤ cxy) (hcxz : 0 ≤ cxz) (hcyz : 0 ≤ cyz)
    (hx : ∀ y ∈ Around q q', ∀ z ∈ Around s s', NearLinear (fun x => G x y z) (Around p p') a)
    (hy : ∀ x ∈ Around p p', ∀ z ∈ Around s s', NearLinear (fun y => G x y z) (Around q q') b)
    (hz : ∀ x ∈ Around p p', ∀ y ∈ Around q q', NearLinear (fun z => G x y z) (Around s s') e)
    (hxy : ∀ z ∈ Around s s', SmallMixed (fun x y => G x y z) (Around p p') (Around q q') cxy)
    (hxz : ∀ y ∈ Around q q', SmallMixed (fun x z => G x y z) (Around p p') (Around s s') cxz)
    (hyz : ∀ x ∈ Around p p', SmallMixed (fun y z => G x y z) (Around q q') (Around s s') cyz) :
    |G p q s - cellValue3 nx ny nz (fun i j k => G i j k) p q s -
      (G p' q' s' - cellValue3 nx ny nz (fun i j k => G i j k) p' q' s')| ≤
      (a + cxy + cxz) * |p - p'| + (b + cxy + cyz) * |q - q'| + (e + cxz + cyz) * |s - s'| := by
  rw [cellValue3_lines hp hq hs, cellValue3_lines hp' hq' hs']
  have mp := around_left p p'
  have mp' := around_right p p'
  have mq := around_left q q'
  have mq' := around_right q q'
  have key := axis_lipschitz hs hs' (u := fun z => G p q z) (u' := fun z => G p' q' z)
    (E := fun k => G p q k - axisValue (fun j => axisValue (fun i => G i j k) p) q)
    (E' := fun k => G p' q' k - axisValue (fun j => axisValue (fun i => G i j k) p') q')
    (b := cxz * |p - p'| + cyz * |q - q'|) (e := (a + cxy) * |p - p'| + (b + cxy) * |q - q'|)
    (a := e) (c := cxz + cyz)
    (fun k hk => by
      have m1 := mixed_unit hcxz hk (hxz q mq p mp p' mp' s (around_left _ _) k (around_node hk))
      have m2 := mixed_unit hcyz hk (hyz p' mp' q mq q' mq' s (around_left _ _) k (around_node hk))
      simp only at m1 m2
      rw [abs_le] at *
      constructor <;> linarith)
    (fun k hk => by
      have := cellValue2_lipschitz hp hp' hq hq' (G := fun x y => G x y k) hcxy
        (fun y hy' => hx y hy' k (around_node hk)) (fun x hx' => hy x hx' k (around_node hk))
        (hxy k (around_node hk))
      rwa [cellValue2_lines hp hq, cellValue2_lines hp' hq'] at this)
    (hz p' mp' q' mq').cells
    (fun k h1 h2 => by
      have hk := around_cell h1 h2
      have m1 : ((k : ℕ) : ℝ) ∈ Around s s' := hk ⟨le_rfl, by linarith⟩
      have m2 : ((k + 1 : ℕ) : ℝ) ∈ Around s s' := hk ⟨by push_cast; linarith, by push_cast; linarith⟩
      have := cellValue2_error hp' hq' (f := fun i j => G i j ((k + 1 : ℕ) : ℝ) - G i j k)
        (δ := cxz + cyz) (w := G p' q' ((k + 1 : ℕ) : ℝ) - G p' q' k) fun i j _ _ hi hj => by
          have h5 := hxz j (around_node' hj) i (around_node' hi) p' mp' _ m2 _ m1
          have h6 := hyz p' mp' j (around_node' hj) q' mq' _ m2 _ m1
          have e : |((k + 1 : ℕ) : ℝ) - k| = 1 := by push_cast; simp
          rw [e, mul_one] at h5 h6
          rw [abs_sub_comm] at hi hj
          have h7 := h5.trans (mul_le_of_le_one_right hcxz hi)
          have h8 := h6.trans (mul_le_of_le_one_right hcyz hj)
          simp only at h7 h8
          rw [abs_le] at *
          constructor <;> linarith
      rw [← cellValue2_sub, cellValue2_lines hp' hq', cellValue2_lines hp' hq', abs_sub_comm] at this
      refine (le_of_eq ?_).trans this
      congr 1
      ring)
  simp only [sub_sub_cancel] at key
  refine key.trans (le_of_eq ?_)
  ring

end Verif
