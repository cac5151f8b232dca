import Verif.Lemmas.Units

/-!
# Helper lemmas: interpolators in different units
-/

set_option linter.unusedSectionVars false

namespace Verif

theorem Py.Rel.bind {α α' β β' : Type} {R : α → α' → Prop} {S : β → β' → Prop} {x : Py α}
    {y : Py α'} {f : α → Py β} {g : α' → Py β'} (h : Py.Rel R x y)
    (hfg : ∀ a b, R a b → Py.Rel S (f a) (g b)) : Py.Rel S (x >>= f) (y >>= g) := by
  cases h with
  | error e => exact .error e
  | ok h => exact hfg _ _ h

theorem Py.Rel.pyMap {α α' β β' : Type*} {R : α → α' → Prop} {S : β → β' → Prop} {f : α → Py β}
    {g : α' → Py β'} (hfg : ∀ a b, R a b → Py.Rel S (f a) (g b)) :
    ∀ {l : List α} {l' : List α'}, List.Forall₂ R l l' →
      Py.Rel (List.Forall₂ S) (Verif.pyMap f l) (Verif.pyMap g l')
  | [], [], .nil => .ok .nil
  | a :: l, b :: l', .cons h hl => by
    unfold Verif.pyMap
    rcases (hfg a b h).cases with ⟨e, e1, e2⟩ | ⟨x, y, e1, e2, hx⟩ <;> rw [e1, e2]
    · exact .error e
    · simp only
      rcases (Py.Rel.pyMap hfg hl).cases with ⟨e, e1, e2⟩ | ⟨xs, ys, e1, e2, hxs⟩ <;> rw [e1, e2]
      · exact .error e
      · exact .ok (.cons hx hxs)

section
variable {α β : Type*} {R : α → β → Prop}

/-- A rearrangement of the entries. -/
theorem RelBy.pull {S T : List ℕ → α → β → Prop} {a : NDArray α} {b : NDArray β} (h : a.RelBy S b)
    (sh : List ℕ) (φ : List ℕ → List ℕ) (hφ : ∀ idx, ValidIdx sh idx → ValidIdx a.shape (φ idx))
    (hT : ∀ idx x y, ValidIdx sh idx → S (φ idx) x y → T idx x y) :
    NDArray.RelBy T ⟨sh, fun idx => a.get (φ idx)⟩ ⟨sh, fun idx => b.get (φ idx)⟩ :=
  ⟨rfl, fun idx hi => hT _ _ _ hi (h.2 _ (hφ idx hi))⟩

theorem RelBy.reshapeC {a : NDArray α} {b : NDArray β} (h : a.RelBy (fun _ => R) b) (sh : List ℕ) :
    Py.Rel (NDArray.RelBy fun _ => R) (a.reshapeC sh) (b.reshapeC sh) := by
  unfold NDArray.reshapeC
  rw [← h.1]
  split
  · rename_i hp
    exact .ok (RelBy.pull h sh _ (fun idx hi => validIdx_decC (hp ▸ encC_lt hi)) fun _ _ _ _ h => h)
  · exact .error _

theorem RelBy.reshapeF {a : NDArray α} {b : NDArray β} (h : a.RelBy (fun _ => R) b) (sh : List ℕ) :
    Py.Rel (NDArray.RelBy fun _ => R) (a.reshapeF sh) (b.reshapeF sh) := by
  unfold NDArray.reshapeF
  rw [← h.1]
  split
  · rename_i hp
    exact .ok (RelBy.pull h sh _ (fun idx hi => validIdx_decF (hp ▸ encF_lt hi)) fun _ _ _ _ h => h)
  · exact .error _

theorem RelBy.ravelC {a : NDArray α} {b : NDArray β} (h : a.RelBy (fun _ => R) b) :
    a.ravelC.RelBy (fun _ => R) b.ravelC := by
  unfold NDArray.ravelC NDArray.ofFn1 NDArray.size
  rw [← h.1]
  refine RelBy.pull h [_] (fun idx => decC a.shape (idx.headD 0)) (fun idx hi => ?_) fun _ _ _ _ h => h
  cases hi with
  | cons hr hi => exact validIdx_decC hr

theorem RelBy.row {S : List ℕ → α → β → Prop} {a : NDArray α} {b : NDArray β} (h : a.RelBy S b)
    {n : ℕ} {rest : List ℕ} (hs : a.shape = n :: rest) {c : ℕ} (hc : c < n) :
    (a.row c).RelBy (fun idx => S (c :: idx)) (b.row c) := by
  unfold NDArray.row
  rw [← h.1]
  refine RelBy.pull h _ (fun idx => c :: idx) (fun idx hi => ?_) fun _ _ _ _ h => h
  rw [hs] at hi ⊢
  exact .cons hc hi

theorem RelBy.rowAt {α : Type} {R : α → α → Prop} {a b : NDArray α} (h : a.RelBy (fun _ => R) b)
    (c : ℕ) : Py.Rel (NDArray.RelBy fun _ => R) (Verif.rowAt a c) (Verif.rowAt b c) := by
  unfold Verif.rowAt
  rw [← h.1]
  cases hs : a.shape with
  | nil => exact .error _
  | cons n rest =>
    simp only
    split
    · rename_i hc
      exact .ok (RelBy.row h hs hc)
    · exact .error _

theorem RelBy.rowColon {α : Type} {R : α → α → Prop} {a b : NDArray α} (h : a.RelBy (fun _ => R) b)
    (c : ℕ) : Py.Rel (NDArray.RelBy fun _ => R) (Verif.rowColon a c) (Verif.rowColon b c) := by
  unfold Verif.rowColon
  rw [← h.1]
  rcases hs : a.shape with _ | ⟨n, _ | ⟨m, rest⟩⟩
  · exact .error _
  · exact .error _
  · simp only
    split
    · rename_i hc
      exact .ok (RelBy.row h hs hc)
    · exact .error _

theorem RelBy.toList {α : Type} {g : α → α} {a b : NDArray α}
    (h : a.RelBy (fun _ x y => y = g x) b) : b.toList = a.toList.map g := by
  unfold NDArray.toList NDArray.size
  rw [← h.1, List.map_map]
  refine List.map_congr_left fun k hk => ?_
  exact h.2 _ (validIdx_decC (List.mem_range.1 hk))

end

variable {K F : Type} [Field K] [LinearOrder K] [IsStrictOrderedRing K]

theorem foldl_map_comm {α : Type*} {op : α → α → α} {g : α → α} (hg : ∀ x y, g (op x y) = op (g x) (g y)) :
    ∀ (l : List α) (x : α), (l.map g).foldl op (g x) = g (l.foldl op x)
  | [], _ => rfl
  | y :: l, x => by
    simp only [List.map_cons, List.foldl_cons]
    rw [← hg, foldl_map_comm hg l]

namespace Units
variable (U : Units K)

theorem affine_mono (j : ℕ) : Monotone fun x => U.a * x + U.b j := fun _ _ h => by
  have := mul_le_mul_of_nonneg_left h U.a_pos.le
  dsimp only
  linarith

variable {U}

theorem npMin {j : ℕ} {a b : NDArray K} (h : a.RelBy (fun _ x y => y = U.a * x + U.b j) b) :
    Py.Rel (fun x y => y = U.a * x + U.b j) (Verif.npMin a) (Verif.npMin b) := by
  unfold Verif.npMin
  rw [RelBy.toList (g := fun x => U.a * x + U.b j) h]
  cases a.toList with
  | nil => exact .error _
  | cons x l =>
    exact .ok (foldl_map_comm (op := min) (g := fun x => U.a * x + U.b j)
      (fun x y => (U.affine_mono j).map_min) l x)

theorem npMax {j : ℕ} {a b : NDArray K} (h : a.RelBy (fun _ x y => y = U.a * x + U.b j) b) :
    Py.Rel (fun x y => y = U.a * x + U.b j) (Verif.npMax a) (Verif.npMax b) := by
  unfold Verif.npMax
  rw [RelBy.toList (g := fun x => U.a * x + U.b j) h]
  cases a.toList with
  | nil => exact .error _
  | cons x l =>
    exact .ok (foldl_map_comm (op := max) (g := fun x => U.a * x + U.b j)
      (fun x y => (U.affine_mono j).map_max) l x)

/-! ## SciPy -/

theorem OptRel.cases {α β : Type*} {R : α → β → Prop} {x : Option α} {y : Option β}
    (h : OptRel R x y) : (x = none ∧ y = none) ∨ ∃ a b, x = some a ∧ y = some b ∧ R a b := by
  cases x <;> cases y
  · exact .inl ⟨rfl, rfl⟩
  · exact h.elim
  · exact h.elim
  · exact .inr ⟨_, _, rfl, rfl, h⟩

/-! ## Scattered data -/

variable (U) in
structure ScatterRel (s s' : ScatterState K) : Prop where
  method : s'.method = s.method
  points : OptRel U.Rows s.points s'.points
  interp : OptRel (fun x y => U.Rows x.1 y.1 ∧ Scaled U.c x.2.1 y.2.1 ∧ Scaled U.c x.2.2 y.2.2)
    s.interp s'.interp
  interpZ : OptRel (fun x y => U.Rows x.1 y.1 ∧ Scaled U.c x.2 y.2) s.interpZ s'.interpZ

theorem ScatterRel.initialize {sp : SciPy K} (hsp : Equivariant U sp) {s s' : ScatterState K}
    (h : ScatterRel U s s') (hv : OptRel (Scaled U.c) s.velocities s'.velocities) :
    (s'.initialize sp).2 = (s.initialize sp).2 ∧
      ((s.initialize sp).2 = none → ScatterRel U (s.initialize sp).1 (s'.initialize sp).1) := by
  have err : ∀ (x y : ScatterState K) (e : PyErr),
      ((y, some e) : _ × Option PyErr).2 = ((x, some e) : _ × Option PyErr).2 ∧
      (((x, some e) : _ × Option PyErr).2 = none → ScatterRel U x y) :=
    fun x y e => ⟨rfl, fun h => by cases h⟩
  unfold ScatterState.initialize
  rcases hv.cases with ⟨e1, e2⟩ | ⟨v, v', e1, e2, hv⟩ <;> rw [e1, e2]
  · exact err _ _ _
  rcases h.points.cases with ⟨e1, e2⟩ | ⟨p, p', e1, e2, hp⟩ <;> rw [e1, e2]
  · exact err _ _ _
  simp only
  rw [h.method, ← hp.1]
  split
  · exact err _ _ _
  rcases (RelBy.rowAt hv 0).cases with ⟨e, e1, e2⟩ | ⟨v0, v0', e1, e2, h0⟩ <;> rw [e1, e2]
  · exact err _ _ _
  simp only
  rcases (RelBy.rowAt hv 1).cases with ⟨e, e1, e2⟩ | ⟨v1, v1', e1, e2, h1⟩ <;> rw [e1, e2]
  · exact err _ _ _
  simp only
  rw [hsp.scatterBuild s.method p p' v0 v0' hp h0]
  cases sp.scatterBuild s.method p v0 with
  | some e => exact err _ _ _
  | none =>
    simp only
    split
    · rcases (RelBy.rowAt hv 2).cases with ⟨e, e1, e2⟩ | ⟨v2, v2', e1, e2, h2⟩ <;> rw [e1, e2]
      · exact err _ _ _
      simp only
      rw [hsp.scatterBuild s.method p p' v2 v2' hp h2]
      cases sp.scatterBuild s.method p v2 with
      | some e => exact err _ _ _
      | none =>
        refine ⟨rfl, fun _ => ⟨rfl, ?_, ⟨hp, h0, h1⟩, ⟨hp, h2⟩⟩⟩
        dsimp only
        exact hp
    · refine ⟨rfl, fun _ => ⟨rfl, ?_, ⟨hp, h0, h1⟩, h.interpZ⟩⟩
      dsimp only
      exact hp

theorem ScatterRel.update {sp : SciPy K} (hsp : Equivariant U sp) {s s' : ScatterState K}
    (h : ScatterRel U s s') {v v' : NDArray K} (hv : Scaled U.c v v') {p p' : Option (NDArray K)}
    (hp : OptRel U.Rows p p') :
    (s'.update sp v' p').2 = (s.update sp v p).2 ∧
      ((s.update sp v p).2 = none → ScatterRel U (s.update sp v p).1 (s'.update sp v' p').1) := by
  refine ScatterRel.initialize hsp ⟨h.method, ?_, h.interp, h.interpZ⟩ hv
  rcases hp.cases with ⟨rfl, rfl⟩ | ⟨x, y, rfl, rfl, hx⟩
  · exact h.points
  · exact hx

/-- Arrays in which the columns in `S` are scaled. -/
def ColScaled (c : K) (n d : ℕ) (S : ℕ → Prop) (a b : NDArray K) : Prop :=
  a.shape = [n, d] ∧ b.shape = [n, d] ∧ ∀ r < n, ∀ j, S j → b.get [r, j] = c * a.get [r, j]

theorem ColScaled.done {c : K} {n d : ℕ} {S : ℕ → Prop} {a b : NDArray K}
    (h : ColScaled c n d S a b) (hS : ∀ j < d, S j) : Scaled c a b := by
  refine ⟨h.1.trans h.2.1.symm, fun idx hi => ?_⟩
  rw [h.1] at hi
  unfold ValidIdx at hi
  cases hi with
  | cons hr hi =>
    cases hi with
    | cons hc hi =>
      cases hi
      exact h.2.2 _ hr _ (hS _ hc)

theorem ColScaled.setCol {c : K} {n d j : ℕ} {S : ℕ → Prop} {a b : NDArray K}
    (h : ColScaled c n d S a b) {f g : ℕ → K} (hfg : ∀ r < n, g r = c * f r) :
    ColScaled c n d (fun x => S x ∨ x = j) (Verif.setCol a j f) (Verif.setCol b j g) := by
  refine ⟨h.1, h.2.1, fun r hr x hx => ?_⟩
  simp only [Verif.setCol]
  by_cases hxc : x = j
  · rw [if_pos hxc, if_pos hxc, hfg r hr]
  · rw [if_neg hxc, if_neg hxc]
    exact h.2.2 r hr x (hx.resolve_right hxc)

theorem ColScaled.assign {c : K} {n d : ℕ} {S : ℕ → Prop} {a b : NDArray K}
    (h : ColScaled c n d S a b) (j : ℕ) {f g : ℕ → K} (hfg : ∀ r < n, g r = c * f r) :
    Py.Rel (ColScaled c n d (fun x => S x ∨ x = j)) (assignCol a j f) (assignCol b j g) := by
  unfold assignCol
  rw [h.1, h.2.1]
  simp only
  by_cases hc : j < d
  · rw [if_pos hc, if_pos hc]
    exact .ok (h.setCol hfg)
  · rw [if_neg hc, if_neg hc]
    exact .error _

theorem ColScaled.start {n d : ℕ} {q q' : NDArray K} (junk junk' : List ℕ → K) (hq : U.Moved q q')
    (hs : q.shape = [n, d]) :
    ColScaled U.c n d (fun _ => False) (emptyLike junk q) (emptyLike junk' q') :=
  ⟨hs, hq.1 ▸ hs, fun _ _ _ h => h.elim⟩

theorem ScatterRel.interpolate {sp : SciPy K} (hsp : Equivariant U sp) (junk junk' : List ℕ → K)
    {s s' : ScatterState K} (hS : ScatterRel U s s') {n : ℕ} {q q' : NDArray K}
    (hq : U.Moved q q') (hs : q.shape = [n, 2]) :
    Py.Rel (Scaled U.c) (s.interpolate sp junk q) (s'.interpolate sp junk' q') := by
  unfold ScatterState.interpolate
  rcases hS.interp.cases with ⟨e1, e2⟩ | ⟨⟨p, v0, v1⟩, ⟨p', v0', v1'⟩, e1, e2, hp, hv0, hv1⟩ <;>
    rw [e1, e2]
  · exact .error _
  simp only at hp hv0 hv1 ⊢
  have hn : q.shape.headD 0 = n := by rw [hs]; rfl
  have hn' : q'.shape.headD 0 = n := by rw [← hq.1, hs]; rfl
  rw [hS.method]
  rcases (hsp.scatterCall s.method p p' v0 v0' q q' hp hv0 hq).cases with
    ⟨e, e1, e2⟩ | ⟨f, g, e1, e2, h1⟩ <;> simp only [e1, e2]
  · exact .error e
  rcases (hsp.scatterCall s.method p p' v1 v1' q q' hp hv1 hq).cases with
    ⟨e, e1, e2⟩ | ⟨f', g', e1, e2, h2⟩ <;> simp only [e1, e2]
  · exact .error e
  rw [hn] at h1 h2
  rcases ((ColScaled.start junk junk' hq hs).assign 0 h1).cases with
    ⟨e, e1, e2⟩ | ⟨o, o', e1, e2, h3⟩ <;> simp only [e1, e2]
  · exact .error e
  rcases (h3.assign 1 h2).cases with ⟨e, e1, e2⟩ | ⟨w, w', e1, e2, h4⟩ <;> simp only [e1, e2]
  · exact .error e
  rw [hn, hn']
  have hfin : Scaled U.c w w' := h4.done fun c hc => by omega
  by_cases hc : s.method ≠ .cubic ∧ n = 3
  · rw [if_pos hc, if_pos hc]
    rcases hS.interpZ.cases with ⟨e1, e2⟩ | ⟨⟨pz, v2⟩, ⟨pz', v2'⟩, e1, e2, hpz, hv2⟩ <;> rw [e1, e2]
    · exact .error _
    simp only at hpz hv2 ⊢
    rcases (hsp.scatterCall s.method pz pz' v2 v2' q q' hpz hv2 hq).cases with
      ⟨e, e1, e2⟩ | ⟨f'', g'', e1, e2, h5⟩ <;> simp only [e1, e2]
    · exact .error e
    rw [hn] at h5
    rcases (h4.assign 2 h5).cases with ⟨e, e1, e2⟩ | ⟨u, u', e1, e2, h6⟩ <;> simp only [e1, e2]
    · exact .error e
    · exact .ok (h6.done fun c hc => by omega)
  · rw [if_neg hc, if_neg hc]
    exact .ok hfin

/-! ## SciPy's grid interpolator -/

variable (U) in
/-- Objects of `RegularGridInterpolator`. -/
def GObj (x y : List (K × K × ℕ) × NDArray K) : Prop := y.1 = U.axes x.1 ∧ Scaled U.c x.2 y.2

variable (U) in
structure GridRel (s s' : GridState K) : Prop where
  method : s'.method = s.method
  gridShape : s'.gridShape = s.gridShape
  points : OptRel U.Rows s.points s'.points
  ndim : s'.ndim = s.ndim
  ix : OptRel U.GObj s.ix s'.ix
  iy : OptRel U.GObj s.iy s'.iy
  iz : OptRel U.GObj s.iz s'.iz

theorem gridAxis {p p' : NDArray K} (hp : U.Rows p p') {n : ℕ} {rest : List ℕ}
    (hs : p.shape = n :: rest) {j : ℕ} (hj : j < n) (k : ℕ) :
    Py.Rel (fun x y => y = (U.a * x.1 + U.b j, U.a * x.2.1 + U.b j, x.2.2))
      (Verif.gridAxis p j k) (Verif.gridAxis p' j k) := by
  unfold Verif.gridAxis
  have hr : (p.row j).RelBy (fun _ x y => y = U.a * x + U.b j) (p'.row j) := RelBy.row hp hs hj
  rcases (npMin hr).cases with ⟨e, e1, e2⟩ | ⟨lo, lo', e1, e2, h1⟩ <;> rw [e1, e2]
  · exact .error e
  simp only
  rcases (npMax hr).cases with ⟨e, e1, e2⟩ | ⟨hi, hi', e1, e2, h2⟩ <;> rw [e1, e2]
  · exact .error e
  · refine .ok ?_
    rw [h1, h2]

theorem gridObject {sp : SciPy K} (hsp : Equivariant U sp) (m : GridMethod) (l : List (K × K × ℕ))
    {v v' : NDArray K} (hv : Scaled U.c v v') (j : ℕ) (sh : List ℕ) :
    Py.Rel U.GObj (Verif.gridObject sp m l v j sh) (Verif.gridObject sp m (U.axes l) v' j sh) := by
  unfold Verif.gridObject
  rcases (RelBy.rowAt hv j).cases with ⟨e, e1, e2⟩ | ⟨w, w', e1, e2, h1⟩ <;> rw [e1, e2]
  · exact .error e
  simp only
  rcases (RelBy.reshapeC h1 sh).cases with ⟨e, e1, e2⟩ | ⟨u, u', e1, e2, h2⟩ <;> rw [e1, e2]
  · exact .error e
  simp only
  rw [hsp.gridBuild m l u u' h2]
  cases sp.gridBuild m l u with
  | some e => exact .error e
  | none => exact .ok ⟨rfl, h2⟩

theorem GridRel.initialize {sp : SciPy K} (hsp : Equivariant U sp) {s s' : GridState K}
    (h : GridRel U s s') (hv : OptRel (Scaled U.c) s.velocities s'.velocities) :
    (s'.initialize sp).2 = (s.initialize sp).2 ∧
      ((s.initialize sp).2 = none → GridRel U (s.initialize sp).1 (s'.initialize sp).1) := by
  have err : ∀ (x y : GridState K) (e : PyErr),
      ((y, some e) : _ × Option PyErr).2 = ((x, some e) : _ × Option PyErr).2 ∧
      (((x, some e) : _ × Option PyErr).2 = none → GridRel U x y) :=
    fun x y e => ⟨rfl, fun h => by cases h⟩
  unfold GridState.initialize
  rcases hv.cases with ⟨e1, e2⟩ | ⟨v, v', e1, e2, hv⟩ <;> rw [e1, e2]
  · exact err _ _ _
  have hpts := h.points
  rcases h.points.cases with ⟨e1, e2⟩ | ⟨p, p', e1, e2, hp⟩ <;> rw [e1, e2]
  · exact err _ _ _
  simp only
  rw [← hp.1, h.gridShape, h.method]
  rcases hs : p.shape with _ | ⟨nd, _ | ⟨npts, _ | ⟨_, _⟩⟩⟩ <;> simp only
  · exact ⟨trivial, fun h => by cases h⟩
  · exact ⟨trivial, fun h => by cases h⟩
  swap
  · exact ⟨trivial, fun h => by cases h⟩
  split
  · exact err _ _ _
  split
  · exact err _ _ _
  split
  · rename_i nx ny h1 hgs
    rcases (gridAxis hp hs (j := 0) (by omega) nx).cases with
      ⟨e, e1, e2⟩ | ⟨x, x', e1, e2, hx⟩ <;> rw [e1, e2]
    · exact err _ _ _
    simp only
    rcases (gridAxis hp hs (j := 1) (by omega) ny).cases with
      ⟨e, e1, e2⟩ | ⟨y, y', e1, e2, hy⟩ <;> rw [e1, e2]
    · exact err _ _ _
    simp only
    have hax : [x', y'] = U.axes [x, y] := by rw [hx, hy]; rfl
    rw [hax]
    rcases (gridObject hsp s.method [x, y] hv 0 [nx, ny]).cases with
      ⟨e, e1, e2⟩ | ⟨o, o', e1, e2, h1⟩ <;> rw [e1, e2]
    · exact err _ _ _
    simp only
    rcases (gridObject hsp s.method [x, y] hv 1 [nx, ny]).cases with
      ⟨e, e1, e2⟩ | ⟨w, w', e1, e2, h2⟩ <;> rw [e1, e2]
    · exact err _ _ _
    exact ⟨rfl, fun _ => ⟨rfl, rfl, hp, rfl, h1, h2, h.iz⟩⟩
  · rename_i nx ny nz h1 hgs
    rcases (gridAxis hp hs (j := 0) (by omega) nx).cases with
      ⟨e, e1, e2⟩ | ⟨x, x', e1, e2, hx⟩ <;> rw [e1, e2]
    · exact err _ _ _
    simp only
    rcases (gridAxis hp hs (j := 1) (by omega) ny).cases with
      ⟨e, e1, e2⟩ | ⟨y, y', e1, e2, hy⟩ <;> rw [e1, e2]
    · exact err _ _ _
    simp only
    rcases (gridAxis hp hs (j := 2) (by omega) nz).cases with
      ⟨e, e1, e2⟩ | ⟨z, z', e1, e2, hz⟩ <;> rw [e1, e2]
    · exact err _ _ _
    simp only
    have hax : [x', y', z'] = U.axes [x, y, z] := by rw [hx, hy, hz]; rfl
    rw [hax]
    rcases (gridObject hsp s.method [x, y, z] hv 0 [nx, ny, nz]).cases with
      ⟨e, e1, e2⟩ | ⟨o, o', e1, e2, h1⟩ <;> rw [e1, e2]
    · exact err _ _ _
    simp only
    rcases (gridObject hsp s.method [x, y, z] hv 1 [nx, ny, nz]).cases with
      ⟨e, e1, e2⟩ | ⟨w, w', e1, e2, h2⟩ <;> rw [e1, e2]
    · exact err _ _ _
    simp only
    rcases (gridObject hsp s.method [x, y, z] hv 2 [nx, ny, nz]).cases with
      ⟨e, e1, e2⟩ | ⟨u, u', e1, e2, h3⟩ <;> rw [e1, e2]
    · exact err _ _ _
    exact ⟨rfl, fun _ => ⟨rfl, rfl, hp, rfl, h1, h2, h3⟩⟩
  · exact err _ _ _

theorem setValues {o o' : Option (List (K × K × ℕ) × NDArray K)} (h : OptRel U.GObj o o')
    {f f' : NDArray K} (hf : Scaled U.c f f') :
    Py.Rel (OptRel U.GObj) (Verif.setValues o f) (Verif.setValues o' f') := by
  rcases h.cases with ⟨rfl, rfl⟩ | ⟨⟨a, b⟩, ⟨a', b'⟩, rfl, rfl, h1, h2⟩
  · exact .error _
  · exact .ok ⟨h1, hf⟩

theorem reshapeF_shape {α : Type*} {a b : NDArray α} {sh : List ℕ} (h : a.reshapeF sh = .ok b) :
    b.shape = sh := by
  unfold NDArray.reshapeF at h
  split at h
  · cases h; rfl
  · cases h

theorem reshapeC_shape {α : Type*} {a b : NDArray α} {sh : List ℕ} (h : a.reshapeC sh = .ok b) :
    b.shape = sh := by
  unfold NDArray.reshapeC at h
  split at h
  · cases h; rfl
  · cases h

theorem GridRel.update {sp : SciPy K} (hsp : Equivariant U sp) {s s' : GridState K}
    (h : GridRel U s s') {v v' : NDArray K} (hv : Scaled U.c v v') {p p' : Option (NDArray K)}
    (hp : OptRel U.Rows p p') :
    (s'.update sp v' p').2 = (s.update sp v p).2 ∧
      ((s.update sp v p).2 = none → GridRel U (s.update sp v p).1 (s'.update sp v' p').1) := by
  have err : ∀ (x y : GridState K) (e : PyErr),
      ((y, some e) : _ × Option PyErr).2 = ((x, some e) : _ × Option PyErr).2 ∧
      (((x, some e) : _ × Option PyErr).2 = none → GridRel U x y) :=
    fun x y e => ⟨rfl, fun h => by cases h⟩
  have hix := h.ix
  unfold GridState.update
  rcases h.ix.cases with ⟨e1, e2⟩ | ⟨x, x', e1, e2, hx⟩ <;> rw [e1, e2] at * <;> simp only
  · refine GridRel.initialize hsp ⟨h.method, h.gridShape, ?_, h.ndim, trivial, h.iy, h.iz⟩ hv
    rcases hp.cases with ⟨rfl, rfl⟩ | ⟨x, y, rfl, rfl, hx⟩
    · exact h.points
    · exact hx
  rcases hp.cases with ⟨rfl, rfl⟩ | ⟨y, y', rfl, rfl, hy⟩ <;> simp only
  swap
  · exact GridRel.initialize hsp ⟨h.method, h.gridShape, hy, h.ndim, hx, h.iy, h.iz⟩ hv
  rw [h.ndim, h.gridShape]
  split
  · rcases (RelBy.reshapeF hv (2 :: s.gridShape)).cases with
      ⟨e, e1, e2⟩ | ⟨f, f', e1, e2, hf⟩ <;> rw [e1, e2]
    · exact err _ _ _
    simp only
    have h0 := RelBy.row hf (reshapeF_shape e1) (c := 0) (by omega)
    have h1 := RelBy.row hf (reshapeF_shape e1) (c := 1) (by omega)
    rcases (setValues h.iy h1).cases with ⟨e, e1, e2⟩ | ⟨y, y', e1, e2, hy⟩ <;> rw [e1, e2]
    · exact err _ _ _
    exact ⟨rfl, fun _ => ⟨h.method, rfl, h.points, rfl, ⟨hx.1, h0⟩, hy, h.iz⟩⟩
  · rename_i nd hnd2 hnd
    rcases (RelBy.reshapeC hv (nd :: s.gridShape)).cases with
      ⟨e, e1, e2⟩ | ⟨f, f', e1, e2, hf⟩ <;> rw [e1, e2]
    · exact err _ _ _
    simp only
    rcases (RelBy.rowAt hf 0).cases with ⟨e, e1, e2⟩ | ⟨f0, f0', e1, e2, h0⟩ <;> rw [e1, e2]
    · exact err _ _ _
    simp only
    rcases (RelBy.rowAt hf 1).cases with ⟨e, e1, e2⟩ | ⟨f1, f1', e1, e2, h1⟩ <;> rw [e1, e2]
    · exact err _ _ _
    simp only
    rcases (setValues h.iy h1).cases with ⟨e, e1, e2⟩ | ⟨y, y', e1, e2, hy⟩ <;> rw [e1, e2]
    · exact err _ _ _
    simp only
    rcases (RelBy.rowAt hf 2).cases with ⟨e, e1, e2⟩ | ⟨f2, f2', e1, e2, h2⟩ <;> rw [e1, e2]
    · exact err _ _ _
    simp only
    rcases (setValues h.iz h2).cases with ⟨e, e1, e2⟩ | ⟨z, z', e1, e2, hz⟩ <;> rw [e1, e2]
    · exact err _ _ _
    exact ⟨rfl, fun _ => ⟨h.method, rfl, h.points, rfl, ⟨hx.1, h0⟩, hy, hz⟩⟩
  · exact err _ _ _

theorem gridCol {sp : SciPy K} (hsp : Equivariant U sp) (m : GridMethod)
    {o o' : Option (List (K × K × ℕ) × NDArray K)} (ho : OptRel U.GObj o o') {n d : ℕ}
    {q q' : NDArray K} (hq : U.Moved q q') (hs : q.shape = [n, d]) {S : ℕ → Prop}
    {a b : NDArray K} (h : ColScaled U.c n d S a b) (j : ℕ) :
    Py.Rel (ColScaled U.c n d (fun x => S x ∨ x = j)) (Verif.gridCol sp m o q a j)
      (Verif.gridCol sp m o' q' b j) := by
  unfold Verif.gridCol
  rcases ho.cases with ⟨rfl, rfl⟩ | ⟨⟨l, v⟩, ⟨l', v'⟩, rfl, rfl, h1, h2⟩
  · exact .error _
  simp only at h1 h2 ⊢
  subst h1
  rcases (hsp.gridCall m l v v' q q' h2 hq).cases with ⟨e, e1, e2⟩ | ⟨f, g, e1, e2, h1⟩ <;>
    simp only [e1, e2]
  · exact .error e
  · refine h.assign j ?_
    rwa [hs] at h1

theorem GridRel.interpolate {sp : SciPy K} (hsp : Equivariant U sp) (junk junk' : List ℕ → K)
    {s s' : GridState K} (hS : GridRel U s s') {n d : ℕ}
    (hd : d = 2 ∨ (d = 3 ∧ (s.ix ≠ none → s.ndim = some 3))) {q q' : NDArray K}
    (hq : U.Moved q q') (hs : q.shape = [n, d]) :
    Py.Rel (Scaled U.c) (s.interpolate sp junk q) (s'.interpolate sp junk' q') := by
  unfold GridState.interpolate
  rw [hS.method, hS.ndim]
  rcases hS.ix.cases with ⟨hx0, e2⟩ | ⟨x, x', hx0, e2, hx⟩ <;> rw [hx0, e2]
  · exact .error _
  simp only
  rcases (gridCol hsp s.method (o := some x) (o' := some x') hx hq hs
    (ColScaled.start junk junk' hq hs) 0).cases with
    ⟨e, e1, e2⟩ | ⟨o, o', e1, e2, h1⟩ <;> simp only [e1, e2]
  · exact .error e
  rcases (gridCol hsp s.method hS.iy hq hs h1 1).cases with
    ⟨e, e1, e2⟩ | ⟨w, w', e1, e2, h2⟩ <;> simp only [e1, e2]
  · exact .error e
  cases hnd : s.ndim with
  | none => exact .error _
  | some nd =>
    simp only
    by_cases h3 : nd = 3
    · rw [if_pos h3, if_pos h3]
      rcases (gridCol hsp s.method hS.iz hq hs h2 2).cases with
        ⟨e, e1, e2⟩ | ⟨u, u', e1, e2, h4⟩ <;> simp only [e1, e2]
      · exact .error e
      · exact .ok (h4.done fun c hc => by omega)
    · rw [if_neg h3, if_neg h3]
      refine .ok (h2.done fun c hc => ?_)
      rcases hd with hd | ⟨_, hd⟩
      · omega
      · rw [hnd] at hd
        have := hd (by rw [hx0]; simp)
        cases this
        exact (h3 rfl).elim

end Units

end Verif
