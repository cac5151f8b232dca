import Verif.Lemmas.UnitsInterp

/-!
# Helper lemmas: runs in different units
-/

set_option linter.unusedSectionVars false

namespace Verif

variable {K F : Type} [Field K] [LinearOrder K] [IsStrictOrderedRing K]

namespace Units
variable {U : Units K}

/-! ## The C++ kernels are linear in the values -/

theorem flatRead {c : K} {v v' : NDArray K} (hv : Scaled c v v') (k : ℤ) :
    Py.Rel (fun x y => y = c * x) (Verif.flatRead v k) (Verif.flatRead v' k) := by
  unfold Verif.flatRead
  rw [← hv.1]
  split
  · rename_i hk
    exact .ok (hv.2 _ (validIdx_decC (by omega)))
  · exact .error _

theorem interp2dAt {c : K} (m : CMachine K) {v v' : NDArray K} (hv : Scaled c v v') (nx ny : ℕ)
    (px py : Option K) :
    Py.Rel (fun x y => y = c * x) (Verif.interp2dAt m v nx ny px py)
      (Verif.interp2dAt m v' nx ny px py) := by
  unfold Verif.interp2dAt
  refine (Py.Rel.refl (R := (· = ·)) (fun _ => rfl) _).bind fun x0 _ h => ?_
  subst h
  refine (Py.Rel.refl (R := (· = ·)) (fun _ => rfl) _).bind fun y0 _ h => ?_
  subst h
  refine (Py.Rel.refl (R := (· = ·)) (fun _ => rfl) _).bind fun x1 _ h => ?_
  subst h
  refine (Py.Rel.refl (R := (· = ·)) (fun _ => rfl) _).bind fun y1 _ h => ?_
  subst h
  split
  · refine (flatRead hv _).bind fun a a' ha => ?_
    refine (flatRead hv _).bind fun b b' hb => ?_
    refine (flatRead hv _).bind fun d d' hd => ?_
    refine (flatRead hv _).bind fun e e' he => ?_
    split
    · refine .ok ?_
      rw [ha, hb, hd, he]
      ring
    · exact .error _
  · exact .ok (mul_zero c).symm

theorem interp3dAt {c : K} (m : CMachine K) {v v' : NDArray K} (hv : Scaled c v v') (nx ny nz : ℕ)
    (px py pz : Option K) :
    Py.Rel (fun x y => y = c * x) (Verif.interp3dAt m v nx ny nz px py pz)
      (Verif.interp3dAt m v' nx ny nz px py pz) := by
  unfold Verif.interp3dAt
  refine (Py.Rel.refl (R := (· = ·)) (fun _ => rfl) _).bind fun yz _ h => ?_
  subst h
  refine (Py.Rel.refl (R := (· = ·)) (fun _ => rfl) _).bind fun x0 _ h => ?_
  subst h
  refine (Py.Rel.refl (R := (· = ·)) (fun _ => rfl) _).bind fun y0 _ h => ?_
  subst h
  refine (Py.Rel.refl (R := (· = ·)) (fun _ => rfl) _).bind fun z0 _ h => ?_
  subst h
  refine (Py.Rel.refl (R := (· = ·)) (fun _ => rfl) _).bind fun x1 _ h => ?_
  subst h
  refine (Py.Rel.refl (R := (· = ·)) (fun _ => rfl) _).bind fun y1 _ h => ?_
  subst h
  refine (Py.Rel.refl (R := (· = ·)) (fun _ => rfl) _).bind fun z1 _ h => ?_
  subst h
  split
  · refine (flatRead hv _).bind fun a1 a1' h1 => ?_
    refine (flatRead hv _).bind fun a2 a2' h2 => ?_
    refine (flatRead hv _).bind fun a3 a3' h3 => ?_
    refine (flatRead hv _).bind fun a4 a4' h4 => ?_
    refine (flatRead hv _).bind fun a5 a5' h5 => ?_
    refine (flatRead hv _).bind fun a6 a6' h6 => ?_
    refine (flatRead hv _).bind fun a7 a7' h7 => ?_
    refine (flatRead hv _).bind fun a8 a8' h8 => ?_
    split
    · refine .ok ?_
      simp only [h1, h2, h3, h4, h5, h6, h7, h8]
      ring
    · exact .error _
  · exact .ok (mul_zero c).symm

variable (U) in
/-- Axes that give the same index coordinates. -/
def AxisRel (j : ℕ) (x y : Axis K) : Prop := ∀ t, y.index (U.a * t + U.b j) = x.index t

variable (U) in
structure IRel (it it' : Interp K) : Prop where
  v : Scaled U.c it.v it'.v
  axes : List.Forall₂ (fun x y => U.AxisRel x.2 x.1 y.1 ∧ y.2 = x.2) it.axes.zipIdx it'.axes.zipIdx

theorem IRel.length {it it' : Interp K} (h : IRel U it it') :
    it'.axes.length = it.axes.length := by
  have := h.axes.length_eq
  simpa using this.symm

theorem linspace (j : ℕ) (lo hi : K) (n : ℕ) : U.AxisRel j (Axis.linspace lo hi n)
    (Axis.linspace (U.a * lo + U.b j) (U.a * hi + U.b j) n) := by
  intro t
  have ha := U.a_pos.ne'
  unfold Axis.linspace Axis.index
  by_cases hn : n = 1
  · simp [hn]
  · simp only [hn, if_false]
    have h1 : (U.a * hi + U.b j - (U.a * lo + U.b j)) / ((n - 1 : ℕ) : K) =
        U.a * ((hi - lo) / ((n - 1 : ℕ) : K)) := by ring
    rw [h1]
    by_cases hd : (hi - lo) / ((n - 1 : ℕ) : K) = 0
    · rw [hd, mul_zero, if_pos rfl, if_pos rfl]
    · rw [if_neg hd, if_neg (mul_ne_zero ha hd)]
      congr 1
      rw [show U.a * t + U.b j - (U.a * lo + U.b j) = U.a * (t - lo) by ring,
        mul_div_mul_left _ _ ha]

theorem call (m : CMachine K) {it it' : Interp K} (h : IRel U it it') (n d : ℕ) (o : Option ℕ)
    {t t' : ℕ → ℕ → K} (ht : ∀ r < n, ∀ j < d, t' r j = U.a * t r j + U.b j) :
    Py.Rel (List.Forall₂ fun x y => y = U.c * x) (it.call m n d t o) (it'.call m n d t' o) := by
  unfold Interp.call
  rw [h.length]
  by_cases hc : d < it.axes.length
  · rw [if_pos hc, if_pos hc]
    exact .error _
  · rw [if_neg hc, if_neg hc]
    have hpts : ((List.range n).map fun r => it'.axes.zipIdx.map fun (a, c) => a.index (t' r c)) =
        ((List.range n).map fun r => it.axes.zipIdx.map fun (a, c) => a.index (t r c)) := by
      refine List.map_congr_left fun r hr => ?_
      have key : ∀ {l l' : List (Axis K × ℕ)},
          List.Forall₂ (fun x y => U.AxisRel x.2 x.1 y.1 ∧ y.2 = x.2) l l' →
          (∀ x ∈ l, x.2 < d) →
          l'.map (fun (a, c) => a.index (t' r c)) = l.map fun (a, c) => a.index (t r c) := by
        intro l l' hl
        induction hl with
        | nil => intro _; rfl
        | cons h1 _ ih =>
          rename_i x y l l' _
          intro hb
          simp only [List.map_cons]
          rw [ih fun z hz => hb z (List.mem_cons_of_mem _ hz), h1.2,
            ht r (List.mem_range.1 hr) x.2 (hb x List.mem_cons_self), h1.1]
      refine key h.axes fun x hx => ?_
      have := List.snd_lt_of_mem_zipIdx hx
      omega
    simp only [hpts]
    have hsame : ∀ (l : List (List (Option K))), List.Forall₂ (· = ·) l l := fun l =>
      List.forall₂_same.2 fun _ _ => rfl
    split
    · unfold interp2dVec
      rw [← h.v.1]
      split
      · exact .error _
      · split
        · split
          · exact .error _
          · split
            · exact .error _
            · refine Py.Rel.pyMap (fun a b hab => ?_) (hsame _)
              subst hab
              split
              · exact interp2dAt m h.v _ _ _ _
              · exact .error _
        · exact .error _
    · unfold interp3dVec
      rw [← h.v.1]
      split
      · exact .error _
      · split
        · split
          · exact .error _
          · split
            · exact .error _
            · refine Py.Rel.pyMap (fun a b hab => ?_) (hsame _)
              subst hab
              split
              · exact interp3dAt m h.v _ _ _ _ _ _
              · exact .error _
        · exact .error _

/-! ## `HighPerfInterpolator` -/

variable (U) in
structure HPRel (s s' : HighPerf K) : Prop where
  gridShape : s'.gridShape = s.gridShape
  ix : OptRel (IRel U) s.ix s'.ix
  iy : OptRel (IRel U) s.iy s'.iy
  iz : OptRel (IRel U) s.iz s'.iz
  uLen : s'.uLen = s.uLen
  wLen : s'.wLen = s.wLen

theorem axisOf {j : ℕ} {a b : NDArray K} (h : a.RelBy (fun _ x y => y = U.a * x + U.b j) b) (n : ℕ) :
    Py.Rel (U.AxisRel j) (Verif.axisOf a n) (Verif.axisOf b n) := by
  unfold Verif.axisOf
  rcases (npMin h).cases with ⟨e, e1, e2⟩ | ⟨lo, lo', e1, e2, h1⟩ <;> rw [e1, e2]
  · exact .error e
  simp only
  rcases (npMax h).cases with ⟨e, e1, e2⟩ | ⟨hi, hi', e1, e2, h2⟩ <;> rw [e1, e2]
  · exact .error e
  · rw [h1, h2]
    exact .ok (linspace j lo hi n)

theorem coords {g : ℕ} {gs : List ℕ} {N : ℕ} {p p' : NDArray K} (hp : U.Rows p p')
    (hs : p.shape = [g, N]) :
    Py.Rel U.Rows (p.reshapeC (g :: gs)) (p'.reshapeC (g :: gs)) := by
  unfold NDArray.reshapeC
  rw [← hp.1, hs]
  split
  · rename_i hprod
    refine .ok (RelBy.pull hp (g :: gs) (fun idx => decC [g, N] (encC (g :: gs) idx))
      (fun idx hi => ?_) fun idx x y hi hxy => ?_)
    · rw [hs]
      exact validIdx_decC (hprod ▸ encC_lt hi)
    · cases hi with
      | cons hj hi =>
        rename_i j is
        have hlt := encC_lt hi
        have hN : N = gs.prod := by
          have hg : 0 < g := by omega
          simp only [List.prod_cons, List.prod_nil, mul_one] at hprod
          exact Nat.eq_of_mul_eq_mul_left hg hprod
        rw [hxy]
        simp only [decC, encC, List.getD_cons_zero, List.prod_cons, List.prod_nil, mul_one]
        rw [hN, Nat.mul_comm j, Nat.mul_add_div (by omega), Nat.div_eq_of_lt hlt, Nat.add_zero]
  · exact .error _

theorem transpose_scaled {c : K} {v v' : NDArray K} (h : Scaled c v v') {k nx ny nz : ℕ}
    (hs : v.shape = [k, nx, ny, nz]) :
    Scaled c (v.transpose [0, 2, 1, 3]) (v'.transpose [0, 2, 1, 3]) := by
  unfold NDArray.transpose
  rw [← h.1]
  refine RelBy.pull h _ _ (fun idx hi => ?_) fun _ _ _ _ h => h
  rw [hs] at hi ⊢
  change ValidIdx [k, ny, nx, nz] idx at hi
  unfold ValidIdx at hi
  obtain ⟨i, _, hi1, g1, rfl⟩ := List.forall₂_cons_right_iff.1 hi
  obtain ⟨j, _, hi2, g2, rfl⟩ := List.forall₂_cons_right_iff.1 g1
  obtain ⟨l, _, hi3, g3, rfl⟩ := List.forall₂_cons_right_iff.1 g2
  obtain ⟨o, _, hi4, g4, rfl⟩ := List.forall₂_cons_right_iff.1 g3
  cases g4
  exact .cons hi1 (.cons hi3 (.cons hi2 (.cons hi4 .nil)))

theorem build {gs : List ℕ} {v v' p p' : NDArray K} (hv : Scaled U.c v v') (hp : U.Rows p p')
    {N : ℕ} (hs : p.shape = [gs.length, N]) :
    Py.Rel (fun x y => IRel U x.1 y.1 ∧ IRel U x.2.1 y.2.1 ∧ OptRel (IRel U) x.2.2 y.2.2)
      (HighPerf.build gs v p) (HighPerf.build gs v' p') := by
  unfold HighPerf.build
  rcases (coords (gs := gs) hp hs).cases with ⟨e, e1, e2⟩ | ⟨w, w', e1, e2, hw⟩ <;> rw [e1, e2]
  · exact .error e
  have hws : w.shape = gs.length :: gs := reshapeC_shape e1
  simp only
  rcases gs with _ | ⟨nx, _ | ⟨ny, _ | ⟨nz, _ | ⟨_, _⟩⟩⟩⟩ <;> simp only
  · exact .error _
  · exact .error _
  · rcases (RelBy.reshapeF hv [2, nx, ny]).cases with ⟨e, e1, e2⟩ | ⟨z, z', e1, e2, hz⟩ <;>
      rw [e1, e2]
    · exact .error e
    have hzs := reshapeF_shape e1
    simp only
    rcases (axisOf (RelBy.row hw hws (c := 0) (by simp)) nx).cases with
      ⟨e, e1, e2⟩ | ⟨x, x', e1, e2, hx⟩ <;> rw [e1, e2]
    · exact .error e
    simp only
    rcases (axisOf (RelBy.row hw hws (c := 1) (by simp)) ny).cases with
      ⟨e, e1, e2⟩ | ⟨y, y', e1, e2, hy⟩ <;> rw [e1, e2]
    · exact .error e
    refine .ok ⟨⟨RelBy.row hz hzs (c := 0) (by omega), ?_⟩,
      ⟨RelBy.row hz hzs (c := 1) (by omega), ?_⟩, trivial⟩
    all_goals exact .cons ⟨hx, rfl⟩ (.cons ⟨hy, rfl⟩ .nil)
  · rcases (RelBy.reshapeC hv [3, nx, ny, nz]).cases with ⟨e, e1, e2⟩ | ⟨z, z', e1, e2, hz⟩ <;>
      rw [e1, e2]
    · exact .error e
    have hzs := reshapeC_shape e1
    have ht := transpose_scaled hz hzs
    have hts : (z.transpose [0, 2, 1, 3]).shape = [3, ny, nx, nz] := by
      simp only [NDArray.transpose, hzs]
      rfl
    simp only
    rcases (axisOf (RelBy.row hw hws (c := 0) (by simp)) nx).cases with
      ⟨e, e1, e2⟩ | ⟨x, x', e1, e2, hx⟩ <;> rw [e1, e2]
    · exact .error e
    simp only
    rcases (axisOf (RelBy.row hw hws (c := 1) (by simp)) ny).cases with
      ⟨e, e1, e2⟩ | ⟨y, y', e1, e2, hy⟩ <;> rw [e1, e2]
    · exact .error e
    simp only
    rcases (axisOf (RelBy.row hw hws (c := 2) (by simp)) nz).cases with
      ⟨e, e1, e2⟩ | ⟨q, q', e1, e2, hq⟩ <;> rw [e1, e2]
    · exact .error e
    refine .ok ⟨⟨RelBy.row ht hts (c := 0) (by omega), ?_⟩,
      ⟨RelBy.row ht hts (c := 1) (by omega), ?_⟩, ⟨RelBy.row ht hts (c := 2) (by omega), ?_⟩⟩
    all_goals exact .cons ⟨hx, rfl⟩ (.cons ⟨hy, rfl⟩ (.cons ⟨hq, rfl⟩ .nil))
  · exact .error _

theorem HPRel.update {s s' : HighPerf K} (h : HPRel U s s') {v v' : NDArray K}
    (hv : Scaled U.c v v') {p p' : Option (NDArray K)} (hp : OptRel U.Rows p p')
    (hps : ∀ x, p = some x → ∃ N, x.shape = [s.gridShape.length, N]) :
    (s'.update v' p').2 = (s.update v p).2 ∧
      ((s.update v p).2 = none → HPRel U (s.update v p).1 (s'.update v' p').1) := by
  have err : ∀ (x y : HighPerf K) (e : PyErr),
      ((y, some e) : _ × Option PyErr).2 = ((x, some e) : _ × Option PyErr).2 ∧
      (((x, some e) : _ × Option PyErr).2 = none → HPRel U x y) :=
    fun x y e => ⟨rfl, fun h => by cases h⟩
  have setZ : ∀ t t' : HighPerf K, HPRel U t t' →
      ((match t'.iz with
        | none => (t', none)
        | some z =>
          match Verif.rowColon v' 2 with
          | .error e => (t', some e)
          | .ok v2 => ({ t' with iz := some { z with v := v2 } }, none) : HighPerf K × Option PyErr)).2 =
      ((match t.iz with
        | none => (t, none)
        | some z =>
          match Verif.rowColon v 2 with
          | .error e => (t, some e)
          | .ok v2 => ({ t with iz := some { z with v := v2 } }, none) : HighPerf K × Option PyErr)).2 ∧
      (((match t.iz with
        | none => (t, none)
        | some z =>
          match Verif.rowColon v 2 with
          | .error e => (t, some e)
          | .ok v2 => ({ t with iz := some { z with v := v2 } }, none) : HighPerf K × Option PyErr)).2 =
        none → HPRel U ((match t.iz with
        | none => (t, none)
        | some z =>
          match Verif.rowColon v 2 with
          | .error e => (t, some e)
          | .ok v2 => ({ t with iz := some { z with v := v2 } }, none) : HighPerf K × Option PyErr)).1
        ((match t'.iz with
        | none => (t', none)
        | some z =>
          match Verif.rowColon v' 2 with
          | .error e => (t', some e)
          | .ok v2 => ({ t' with iz := some { z with v := v2 } }, none) : HighPerf K × Option PyErr)).1) := by
    intro t t' ht
    rcases ht.iz.cases with ⟨e1, e2⟩ | ⟨z, z', e1, e2, hz⟩ <;> simp only [e1, e2]
    · exact ⟨trivial, fun _ => ht⟩
    rcases (RelBy.rowColon hv 2).cases with ⟨e, e1, e2⟩ | ⟨w, w', e1, e2, hw⟩ <;> simp only [e1, e2]
    · exact ⟨trivial, fun h => by cases h⟩
    · exact ⟨trivial, fun _ => ⟨ht.gridShape, ht.ix, ht.iy, ⟨hw, hz.axes⟩, ht.uLen, ht.wLen⟩⟩
  unfold HighPerf.update
  rcases hp.cases with ⟨rfl, rfl⟩ | ⟨y, y', rfl, rfl, hy⟩ <;> simp only
  swap
  · unfold HighPerf.initialize
    simp only
    rw [h.gridShape]
    obtain ⟨N, hN⟩ := hps y rfl
    rcases (build (gs := s.gridShape) hv hy hN).cases with
      ⟨e, e1, e2⟩ | ⟨⟨x1, x2, x3⟩, ⟨y1, y2, y3⟩, e1, e2, h1, h2, h3⟩ <;> rw [e1, e2]
    · exact err _ _ _
    · exact ⟨rfl, fun _ => ⟨rfl, h1, h2, h3, h.uLen, h.wLen⟩⟩
  · have h' : HPRel U { s with velocities := some v } { s' with velocities := some v' } :=
      ⟨h.gridShape, h.ix, h.iy, h.iz, h.uLen, h.wLen⟩
    rcases h.ix.cases with ⟨e1, e2⟩ | ⟨x, x', ex, ex', hx⟩
    · simp only [e1, e2]
      refine setZ { s with velocities := some v, ix := none }
        { s' with velocities := some v', ix := none } ⟨h.gridShape, trivial, h.iy, h.iz, h.uLen, h.wLen⟩
    rcases h.iy.cases with ⟨e1, e2⟩ | ⟨y, y', ey, ey', hy⟩
    · simp only [e1, e2, ex, ex']
      refine setZ { s with velocities := some v, ix := some x, iy := none }
        { s' with velocities := some v', ix := some x', iy := none }
        ⟨h.gridShape, hx, trivial, h.iz, h.uLen, h.wLen⟩
    simp only [ex, ex', ey, ey']
    rcases (RelBy.rowColon hv 0).cases with ⟨e, e1, e2⟩ | ⟨w, w', e1, e2, hw⟩ <;> simp only [e1, e2]
    · exact ⟨trivial, fun h => by cases h⟩
    rcases (RelBy.rowColon hv 1).cases with ⟨e, e1, e2⟩ | ⟨u, u', e1, e2, hu⟩ <;> simp only [e1, e2]
    · exact ⟨trivial, fun h => by cases h⟩
    refine setZ
      { s with velocities := some v, ix := some { x with v := w }, iy := some { y with v := u } }
      { s' with velocities := some v', ix := some { x' with v := w' }, iy := some { y' with v := u' } }
      ⟨h.gridShape, ⟨hw, hx.axes⟩, ⟨hu, hy.axes⟩, h.iz, h.uLen, h.wLen⟩

theorem HPRel.ensure {s s' : HighPerf K} (h : HPRel U s s') (n d : ℕ) :
    HPRel U (s.ensureBuffers n d) (s'.ensureBuffers n d) := by
  unfold HighPerf.ensureBuffers
  rw [h.uLen]
  split
  · exact h
  · split
    · exact ⟨h.gridShape, h.ix, h.iy, h.iz, rfl, rfl⟩
    · exact ⟨h.gridShape, h.ix, h.iy, h.iz, rfl, h.wLen⟩

theorem listCol {c : K} {l l' : List K} (h : List.Forall₂ (fun x y => y = c * x) l l') (x y : K)
    {n : ℕ} (hn : l.length = n) : ∀ r < n, Verif.listCol l' y r = c * Verif.listCol l x r := by
  intro r hr
  have hl := h.length_eq
  unfold Verif.listCol
  rw [List.getElem?_eq_getElem (by omega), List.getElem?_eq_getElem (by omega)]
  exact h.get (by omega) (by omega)

theorem HPRel.interpolate (m : CMachine K) (junk junk' : List ℕ → K) {s s' : HighPerf K}
    (h : HPRel U s s') {n d : ℕ} {q q' : NDArray K} (hq : U.Moved q q') (hs : q.shape = [n, d]) :
    Py.Rel (Scaled U.c) (s.interpolate m junk q).2 (s'.interpolate m junk' q').2 ∧
      HPRel U (s.interpolate m junk q).1 (s'.interpolate m junk' q').1 := by
  have hs' : q'.shape = [n, d] := hq.1 ▸ hs
  have ht : ∀ r < n, ∀ j < d, q'.get [r, j] = U.a * q.get [r, j] + U.b j := by
    intro r hr j hj
    refine hq.2 [r, j] ?_
    rw [hs]
    exact .cons hr (.cons hj .nil)
  have h0 := ColScaled.start (U := U) junk junk' hq hs
  have he := h.ensure n d
  unfold HighPerf.interpolate
  rw [hs, hs']
  simp only
  rw [he.uLen, he.wLen]
  generalize s.ensureBuffers n d = t at *
  generalize s'.ensureBuffers n d = t' at *
  have two : ∀ {x x' : Interp K} (_ : IRel U x x') (o : Option ℕ), _ := fun hx o =>
    call m hx n d o ht
  split
  · rename_i hd
    subst hd
    rcases he.ix.cases with ⟨e1, e2⟩ | ⟨x, x', e1, e2, hx⟩ <;> rw [e1, e2]
    · exact ⟨.error _, he⟩
    rcases he.iy.cases with ⟨e1, e2⟩ | ⟨y, y', e1, e2, hy⟩ <;> rw [e1, e2]
    · exact ⟨.error _, he⟩
    simp only
    rcases (two hx t.uLen).cases with ⟨e, e1, e2⟩ | ⟨u, u', e1, e2, hu⟩ <;> rw [e1, e2]
    · exact ⟨.error _, he⟩
    simp only
    rcases (two hy t.uLen).cases with ⟨e, e3, e4⟩ | ⟨v, v', e3, e4, hv⟩ <;> rw [e3, e4]
    · exact ⟨.error _, he⟩
    refine ⟨.ok (((h0.setCol (listCol hu _ _ (call_length e1))).setCol
      (listCol hv _ _ (call_length e3))).done fun c hc => ?_), he⟩
    omega
  · split
    · rename_i hd
      subst hd
      rcases he.ix.cases with ⟨e1, e2⟩ | ⟨x, x', e1, e2, hx⟩ <;> rw [e1, e2]
      · exact ⟨.error _, he⟩
      rcases he.iy.cases with ⟨e1, e2⟩ | ⟨y, y', e1, e2, hy⟩ <;> rw [e1, e2]
      · exact ⟨.error _, he⟩
      rcases he.iz.cases with ⟨e1, e2⟩ | ⟨z, z', e1, e2, hz⟩ <;> rw [e1, e2]
      · exact ⟨.error _, he⟩
      simp only
      rcases (two hx t.uLen).cases with ⟨e, e1, e2⟩ | ⟨u, u', e1, e2, hu⟩ <;> rw [e1, e2]
      · exact ⟨.error _, he⟩
      simp only
      rcases (two hy t.uLen).cases with ⟨e, e3, e4⟩ | ⟨v, v', e3, e4, hv⟩ <;> rw [e3, e4]
      · exact ⟨.error _, he⟩
      simp only
      rcases (two hz t.wLen).cases with ⟨e, e5, e6⟩ | ⟨w, w', e5, e6, hw⟩ <;> rw [e5, e6]
      · exact ⟨.error _, he⟩
      refine ⟨.ok ((((h0.setCol (listCol hu _ _ (call_length e1))).setCol
        (listCol hv _ _ (call_length e3))).setCol (listCol hw _ _ (call_length e5))).done
        fun c hc => ?_), he⟩
      omega
    · exact ⟨.error _, he⟩

/-! ## Any interpolator -/

/-- Interpolator objects in the two systems. -/
inductive InterpRel (U : Units K) : AnyInterp K → AnyInterp K → Prop
  | scatter {s s'} (h : ScatterRel U s s') : InterpRel U (.scatter s) (.scatter s')
  | highPerf {s s'} (h : HPRel U s s') : InterpRel U (.highPerf s) (.highPerf s')
  | grid {s s'} (h : GridRel U s s') : InterpRel U (.grid s) (.grid s')
  | analytical {s s'} (h : OptRel (FnRel U) s.fn s'.fn) (ht : s'.time = U.τ * s.time) :
      InterpRel U (.analytical s) (.analytical s')

theorem usesSciPy_update (sp : SciPy K) (I : AnyInterp K) (v : NDArray K) (p : Option (NDArray K)) :
    UsesSciPy (I.update sp v p).1 = UsesSciPy I := by
  cases I <;> rfl

theorem usesSciPy_interpolate (sp : SciPy K) (m : CMachine K) (junk : List ℕ → K) (I : AnyInterp K)
    (q : NDArray K) : UsesSciPy (I.interpolate sp m junk q).1 = UsesSciPy I := by
  cases I <;> rfl

theorem InterpRel.update {sp : SciPy K} {I I' : AnyInterp K}
    (h : InterpRel U I I') {v v' : NDArray K} (hv : Scaled U.c v v') {p p' : Option (NDArray K)}
    (hp : OptRel U.Rows p p') (hr : RowsOk I p) (hsp : UsesSciPy I → Equivariant U sp) :
    (I'.update sp v' p').2 = (I.update sp v p).2 ∧
      ((I.update sp v p).2 = none → InterpRel U (I.update sp v p).1 (I'.update sp v' p').1) := by
  cases h with
  | scatter h => exact ⟨(h.update (hsp trivial) hv hp).1, fun hn => .scatter ((h.update (hsp trivial) hv hp).2 hn)⟩
  | highPerf h => exact ⟨(h.update hv hp hr).1, fun hn => .highPerf ((h.update hv hp hr).2 hn)⟩
  | grid h => exact ⟨(h.update (hsp trivial) hv hp).1, fun hn => .grid ((h.update (hsp trivial) hv hp).2 hn)⟩
  | analytical h ht => exact ⟨rfl, fun _ => .analytical h ht⟩

theorem Dims.update {d : ℕ} {I : AnyInterp K} (h : Dims d I) (sp : SciPy K) (v : NDArray K)
    (p : Option (NDArray K)) (hn : (I.update sp v p).2 = none) : Dims d (I.update sp v p).1 := by
  cases I with
  | scatter s => exact h
  | highPerf s => exact h
  | analytical s => exact h
  | grid s =>
    rcases h with h | ⟨h1, h2, h3⟩
    · exact .inl h
    · have := grid_update_ndim sp s v p h2 h3 hn
      have hg : (s.update sp v p).1.gridShape.length = 3 := by
        rw [(grid_update_config sp s v p).2]
        exact h2
      exact .inr ⟨h1, hg, fun _ => this⟩

/-- The grid shape does not change. -/
theorem RowsOk.update {I : AnyInterp K} (sp : SciPy K) (v : NDArray K) (p p' : Option (NDArray K))
    (h : RowsOk I p') : RowsOk (I.update sp v p).1 p' := by
  cases I with
  | scatter s => trivial
  | grid s => trivial
  | analytical s => trivial
  | highPerf s =>
    have hg : (s.update v p).1.gridShape = s.gridShape := by
      unfold HighPerf.update HighPerf.initialize
      dsimp only
      repeat' split
      all_goals rfl
    show ∀ x, p' = some x → ∃ N, x.shape = [(s.update v p).1.gridShape.length, N]
    rw [hg]
    exact h

theorem InterpRel.interpolate {sp : SciPy K} (m : CMachine K)
    (junk junk' : List ℕ → K) {I I' : AnyInterp K} (h : InterpRel U I I')
    (hsp : UsesSciPy I → Equivariant U sp) {n d : ℕ} (hd : Dims d I) {q q' : NDArray K} (hq : U.Moved q q') (hs : q.shape = [n, d]) :
    Py.Rel (Scaled U.c) (I.interpolate sp m junk q).2 (I'.interpolate sp m junk' q').2 ∧
      InterpRel U (I.interpolate sp m junk q).1 (I'.interpolate sp m junk' q').1 := by
  cases h with
  | scatter h =>
    obtain rfl : d = 2 := hd
    exact ⟨h.interpolate (hsp trivial) junk junk' hq hs, .scatter h⟩
  | highPerf h =>
    exact ⟨(h.interpolate m junk junk' hq hs).1, .highPerf (h.interpolate m junk junk' hq hs).2⟩
  | grid h =>
    refine ⟨h.interpolate (hsp trivial) junk junk' ?_ hq hs, .grid h⟩
    rcases hd with hd | ⟨h1, _, h2⟩
    · exact .inl hd
    · exact .inr ⟨h1, h2⟩
  | analytical h ht =>
    rename_i s s'
    refine ⟨?_, .analytical h ht⟩
    show Py.Rel (Scaled U.c) (s.interpolate q) (s'.interpolate q')
    unfold AnalyticalState.interpolate
    rcases h.cases with ⟨e1, e2⟩ | ⟨f, f', e1, e2, hf⟩ <;> rw [e1, e2]
    · exact .error _
    · simp only
      rw [ht]
      exact hf _ _ _ hq

theorem Dims.interpolate {d : ℕ} {I : AnyInterp K} (sp : SciPy K) (m : CMachine K)
    (junk : List ℕ → K) (q : NDArray K) (h : Dims d I) :
    Dims d (I.interpolate sp m junk q).1 := by
  cases I with
  | scatter s => exact h
  | grid s => exact h
  | analytical s => exact h
  | highPerf s => exact h

theorem RowsOk.interpolate {I : AnyInterp K} (sp : SciPy K) (m : CMachine K)
    (junk : List ℕ → K) (q : NDArray K) (p : Option (NDArray K)) (h : RowsOk I p) :
    RowsOk (I.interpolate sp m junk q).1 p := by
  cases I with
  | scatter s => exact h
  | grid s => exact h
  | analytical s => exact h
  | highPerf s =>
    have hg : (s.interpolate m junk q).1.gridShape = s.gridShape := by
      have he : ∀ n d, (s.ensureBuffers n d).gridShape = s.gridShape := by
        intro n d
        unfold HighPerf.ensureBuffers
        repeat' split
        all_goals rfl
      unfold HighPerf.interpolate
      dsimp only
      repeat' split
      all_goals first | rfl | exact he _ _
    show ∀ x, p = some x → ∃ N, x.shape = [(s.interpolate m junk q).1.gridShape.length, N]
    rw [hg]
    exact h

end Units

end Verif
