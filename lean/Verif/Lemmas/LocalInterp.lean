import Verif.Lemmas.Local
import Verif.Lemmas.Memory

/-!
# Interpolators treat query rows independently
-/

set_option linter.unusedSectionVars false

namespace Verif

theorem pyMap_map {α β γ : Type*} (f : β → Py γ) (g : α → β) (l : List α) :
    pyMap f (l.map g) = pyMap (fun a => f (g a)) l := by
  induction l with
  | nil => rfl
  | cons a l ih => simp only [List.map_cons, pyMap, ih]

/-- A loop over fewer (or reordered) items succeeds if the other one does, with the same
values. -/
theorem pyMap_local {β : Type*} {f f' : ℕ → Py β} {n n' : ℕ} {τ : ℕ → ℕ}
    (hτ : ∀ i < n, τ i < n') (hf : ∀ i < n, f i = f' (τ i)) {bs' : List β}
    (h : pyMap f' (List.range n') = .ok bs') :
    ∃ bs, pyMap f (List.range n) = .ok bs ∧ bs.length = n ∧ ∀ i < n, bs[i]? = bs'[τ i]? := by
  have key : ∀ i < n, ∃ b, bs'[τ i]? = some b ∧ f i = .ok b := by
    intro i hi
    obtain ⟨b, h1, h2⟩ := pyMap_ok_get h (τ i) (by simpa using hτ i hi)
    rw [List.getElem_range] at h2
    exact ⟨b, h1, by rw [hf i hi, h2]⟩
  have hex : ∀ i, ∃ b : Option β, i < n → bs'[τ i]? = b ∧ ∃ c, b = some c ∧ f i = .ok c := by
    intro i
    by_cases hi : i < n
    · obtain ⟨b, h1, h2⟩ := key i hi
      exact ⟨some b, fun _ => ⟨h1, b, rfl, h2⟩⟩
    · exact ⟨none, fun h => absurd h hi⟩
  by_cases hn : n = 0
  · subst hn
    exact ⟨[], rfl, rfl, fun i hi => absurd hi (by omega)⟩
  obtain ⟨b0, -, -⟩ := key 0 (by omega)
  have hg : ∀ i ∈ List.range n, f i = .ok ((bs'[τ i]?).getD b0) := by
    intro i hi
    obtain ⟨b, h1, h2⟩ := key i (List.mem_range.1 hi)
    rw [h1, h2]; rfl
  have hok := pyMap_ok (f := f) (g := fun i => (bs'[τ i]?).getD b0) (l := List.range n) hg
  refine ⟨_, hok, by simp, fun i hi => ?_⟩
  obtain ⟨b, h1, -⟩ := key i hi
  simp [hi, h1]

section
variable {K F : Type} [Zero K] [One K] [Add K] [Sub K] [Mul K] [Div K] [NatCast K] [IntCast K]
  [Min K] [Max K] [NumLits K] [DecidableEq K] {R R' d : ℕ} {σ : ℕ → ℕ}

/-- Matching rows in the columns in `S`. -/
def ColMatch (R R' d : ℕ) (σ : ℕ → ℕ) (S : ℕ → Prop) (a a' : NDArray K) : Prop :=
  a.shape = [R, d] ∧ a'.shape = [R', d] ∧ ∀ r < R, ∀ c, S c → a.get [r, c] = a'.get [σ r, c]

theorem ColMatch.rowsMatch {S : ℕ → Prop} {a a' : NDArray K} (h : ColMatch R R' d σ S a a')
    (hS : ∀ c < d, S c) : RowsMatch R R' d σ a a' :=
  ⟨h.1, h.2.1, fun r hr => funext fun c => h.2.2 r hr c.1 (hS c.1 c.2)⟩

theorem ColMatch.setCol {S : ℕ → Prop} {a a' : NDArray K} (h : ColMatch R R' d σ S a a') (c : ℕ)
    {f f' : ℕ → K} (hf : ∀ r < R, f r = f' (σ r)) :
    ColMatch R R' d σ (fun x => S x ∨ x = c) (Verif.setCol a c f) (Verif.setCol a' c f') := by
  refine ⟨h.1, h.2.1, fun r hr x hx => ?_⟩
  simp only [Verif.setCol]
  by_cases hc : x = c
  · simp only [hc, if_true]; exact hf r hr
  · simp only [hc, if_false]
    exact h.2.2 r hr x (hx.resolve_right hc)

theorem ColMatch.assign {S : ℕ → Prop} {a a' A' : NDArray K} (h : ColMatch R R' d σ S a a')
    (c : ℕ) {f f' : ℕ → K} (hf : ∀ r < R, f r = f' (σ r)) (hA : assignCol a' c f' = .ok A') :
    ∃ A, assignCol a c f = .ok A ∧ ColMatch R R' d σ (fun x => S x ∨ x = c) A A' := by
  unfold assignCol at hA ⊢
  rw [h.2.1] at hA
  rw [h.1]
  simp only at hA ⊢
  by_cases hc : c < d
  · simp only [hc, if_true] at hA ⊢
    cases hA
    exact ⟨_, rfl, h.setCol c hf⟩
  · simp [hc] at hA

theorem ColMatch.start {q q' : NDArray K} (junk junk' : List ℕ → K)
    (h : RowsMatch R R' d σ q q') :
    ColMatch R R' d σ (fun _ => False) (emptyLike junk q) (emptyLike junk' q') :=
  ⟨h.left, h.right, fun _ _ _ h => h.elim⟩

/-- SciPy interpolators evaluate query points independently: when they answer a list of query
points, they answer every list made of such points, with the same values. -/
structure SciPy.RowLocal (sp : SciPy K) : Prop where
  scatter : ∀ me p v (R R' d : ℕ) (σ : ℕ → ℕ) (q q' : NDArray K) f',
    (∀ r < R, σ r < R') → RowsMatch R R' d σ q q' → sp.scatterCall me p v q' = .ok f' →
    ∃ f, sp.scatterCall me p v q = .ok f ∧ ∀ r < R, f r = f' (σ r)
  grid : ∀ me axes v (R R' d : ℕ) (σ : ℕ → ℕ) (q q' : NDArray K) f',
    (∀ r < R, σ r < R') → RowsMatch R R' d σ q q' → sp.gridCall me axes v q' = .ok f' →
    ∃ f, sp.gridCall me axes v q = .ok f ∧ ∀ r < R, f r = f' (σ r)

theorem scatter_local {sp : SciPy K} (hsp : sp.RowLocal) (junk : List ℕ → K) (s : ScatterState K)
    (hσ : ∀ r < R, σ r < R') (h3 : R ≠ 3) (h3' : R' ≠ 3) :
    Verif.RowLocal R R' 2 σ (s.interpolate sp junk) := by
  intro q q' A' hm hA
  unfold ScatterState.interpolate at hA ⊢
  have n1 : ¬ (s.method ≠ .cubic ∧ q.shape.headD 0 = 3) := by rw [hm.left]; simp [h3]
  have n2 : ¬ (s.method ≠ .cubic ∧ q'.shape.headD 0 = 3) := by rw [hm.right]; simp [h3']
  cases hi : s.interp with
  | none => rw [hi] at hA; cases hA
  | some x =>
    obtain ⟨p, v0, v1⟩ := x
    simp only [hi, n2, if_false] at hA
    simp only [n1, if_false]
    cases h0 : sp.scatterCall s.method p v0 q' with
    | error e => rw [h0] at hA; cases hA
    | ok f0' =>
      obtain ⟨f0, a1, a2⟩ := hsp.scatter _ _ _ _ _ _ _ _ _ _ hσ hm h0
      simp only [h0] at hA
      cases h1 : sp.scatterCall s.method p v1 q' with
      | error e => rw [h1] at hA; cases hA
      | ok f1' =>
        obtain ⟨f1, b1, b2⟩ := hsp.scatter _ _ _ _ _ _ _ _ _ _ hσ hm h1
        simp only [h1] at hA
        cases h2 : assignCol (emptyLike junk q') 0 f0' with
        | error e => rw [h2] at hA; cases hA
        | ok o0' =>
          obtain ⟨o0, c1, c2⟩ := (ColMatch.start junk junk hm).assign 0 a2 h2
          simp only [h2] at hA
          cases h3 : assignCol o0' 1 f1' with
          | error e => rw [h3] at hA; cases hA
          | ok o1' =>
            obtain ⟨o1, d1, d2⟩ := c2.assign 1 b2 h3
            simp only [h3] at hA
            cases hA
            simp only [a1, b1, c1, d1]
            exact ⟨o1, rfl, d2.rowsMatch fun c hc => by omega⟩

theorem gridCol_local {sp : SciPy K} (hsp : sp.RowLocal) (me : GridMethod)
    (o : Option (List (K × K × ℕ) × NDArray K)) (hσ : ∀ r < R, σ r < R') {q q' : NDArray K}
    (hm : RowsMatch R R' d σ q q') {S : ℕ → Prop} {a a' A' : NDArray K}
    (h : ColMatch R R' d σ S a a') (c : ℕ) (hA : gridCol sp me o q' a' c = .ok A') :
    ∃ A, gridCol sp me o q a c = .ok A ∧ ColMatch R R' d σ (fun x => S x ∨ x = c) A A' := by
  unfold gridCol at hA ⊢
  cases o with
  | none => cases hA
  | some x =>
    obtain ⟨axes, v⟩ := x
    simp only at hA ⊢
    cases h0 : sp.gridCall me axes v q' with
    | error e => rw [h0] at hA; cases hA
    | ok f' =>
      obtain ⟨f, a1, a2⟩ := hsp.grid _ _ _ _ _ _ _ _ _ _ hσ hm h0
      simp only [h0] at hA
      simp only [a1]
      exact h.assign c a2 hA

theorem grid_local {sp : SciPy K} (hsp : sp.RowLocal) (junk : List ℕ → K) (s : GridState K)
    (hσ : ∀ r < R, σ r < R') (hd : d = 2 ∨ (d = 3 ∧ s.ndim = some 3)) :
    Verif.RowLocal R R' d σ (s.interpolate sp junk) := by
  intro q q' A' hm hA
  unfold GridState.interpolate at hA ⊢
  cases hx : s.ix with
  | none => rw [hx] at hA; cases hA
  | some x =>
    simp only [hx] at hA
    simp only
    cases h0 : gridCol sp s.method (some x) q' (emptyLike junk q') 0 with
    | error e => rw [h0] at hA; cases hA
    | ok o0' =>
      obtain ⟨o0, a1, a2⟩ := gridCol_local hsp s.method (some x) hσ hm
        (ColMatch.start junk junk hm) 0 h0
      simp only [h0] at hA
      cases h1 : gridCol sp s.method s.iy q' o0' 1 with
      | error e => rw [h1] at hA; cases hA
      | ok o1' =>
        obtain ⟨o1, b1, b2⟩ := gridCol_local hsp s.method s.iy hσ hm a2 1 h1
        simp only [h1] at hA
        simp only [a1, b1]
        cases hn : s.ndim with
        | none => rw [hn] at hA; cases hA
        | some nd =>
          simp only [hn] at hA
          simp only
          by_cases h3 : nd = 3
          · simp only [h3, if_true] at hA ⊢
            obtain ⟨o2, c1, c2⟩ := gridCol_local hsp s.method s.iz hσ hm b2 2 hA
            exact ⟨o2, c1, c2.rowsMatch fun c hc => by rcases hd with h | h <;> omega⟩
          · simp only [h3, if_false] at hA ⊢
            cases hA
            refine ⟨o1, rfl, b2.rowsMatch fun c hc => ?_⟩
            rcases hd with h | ⟨h, h'⟩
            · omega
            · rw [hn] at h'; cases h'; exact absurd rfl h3

/-- Calls of the compiled interpolators. -/
theorem call_local (m : CMachine K) (it : Interp K) (hσ : ∀ r < R, σ r < R') {q q' : NDArray K}
    (hm : RowsMatch R R' d σ q q') {l' : List K}
    (h : it.call m R' d (fun r c => q'.get [r, c]) (some R') = .ok l') :
    ∃ l, it.call m R d (fun r c => q.get [r, c]) (some R) = .ok l ∧
      ∀ r < R, l[r]? = l'[σ r]? := by
  unfold Interp.call at h ⊢
  by_cases hc : d < it.axes.length
  · simp [hc] at h
  · simp only [hc, if_false] at h ⊢
    have hpts : ∀ r < R, (it.axes.zipIdx.map fun (x : Axis K × ℕ) => x.1.index (q.get [r, x.2])) =
        it.axes.zipIdx.map fun (x : Axis K × ℕ) => x.1.index (q'.get [σ r, x.2]) := by
      intro r hr
      apply List.map_congr_left
      intro x hx
      have hlt : x.2 < d := by
        have := List.snd_lt_of_mem_zipIdx hx
        omega
      have := congrFun (hm.rows r hr) ⟨x.2, hlt⟩
      simp only [rowOf] at this
      rw [this]
    have key : ∀ f : List (Option K) → Py K,
        pyMap f ((List.range R').map fun r => it.axes.zipIdx.map
          fun (x : Axis K × ℕ) => x.1.index (q'.get [r, x.2])) = .ok l' →
        ∃ l, pyMap f ((List.range R).map fun r => it.axes.zipIdx.map
          fun (x : Axis K × ℕ) => x.1.index (q.get [r, x.2])) = .ok l ∧
          ∀ r < R, l[r]? = l'[σ r]? := by
      intro f hf
      rw [pyMap_map] at hf
      rw [pyMap_map]
      obtain ⟨l, e1, -, e3⟩ := pyMap_local
        (f := fun r => f (it.axes.zipIdx.map fun (x : Axis K × ℕ) => x.1.index (q.get [r, x.2])))
        hσ (fun r hr => by simp only [hpts r hr]) hf
      exact ⟨l, e1, e3⟩
    by_cases hl : it.axes.length = 2
    · simp only [hl, interp2dVec] at h ⊢
      rcases hv : it.v.shape with _ | ⟨a, _ | ⟨b, _ | ⟨c, t⟩⟩⟩
      · simp [hv] at h
      · simp [hv] at h
      · simp only [hv] at h ⊢
        by_cases h2 : d = 2
        · simp only [h2, ne_eq, not_true_eq_false, if_false, List.length_map,
            List.length_range] at h ⊢
          exact key _ h
        · simp [h2] at h
      · simp [hv] at h
    · have h' : interp3dVec m it.v d ((List.range R').map fun r => it.axes.zipIdx.map
          fun (x : Axis K × ℕ) => x.1.index (q'.get [r, x.2])) (some R') = .ok l' := by
        split at h
        · rename_i e; exact absurd e hl
        · exact h
      suffices H : ∃ l, interp3dVec m it.v d ((List.range R).map fun r => it.axes.zipIdx.map
          fun (x : Axis K × ℕ) => x.1.index (q.get [r, x.2])) (some R) = .ok l ∧
          ∀ r < R, l[r]? = l'[σ r]? by
        obtain ⟨l, e1, e2⟩ := H
        refine ⟨l, ?_, e2⟩
        split
        · rename_i e; exact absurd e hl
        · exact e1
      simp only [interp3dVec] at h' ⊢
      rcases hv : it.v.shape with _ | ⟨a, _ | ⟨b, _ | ⟨c, _ | ⟨e, t⟩⟩⟩⟩
      · simp [hv] at h'
      · simp [hv] at h'
      · simp [hv] at h'
      · simp only [hv] at h' ⊢
        by_cases h2 : d = 3
        · simp only [h2, ne_eq, not_true_eq_false, if_false, List.length_map,
            List.length_range] at h' ⊢
          exact key _ h'
        · simp [h2] at h'
      · simp [hv] at h'

theorem unused_buffers {s : HighPerf K} (hu : s.uLen = none) (n d : ℕ) :
    (s.ensureBuffers n d).uLen = some n ∧ (d = 3 → (s.ensureBuffers n d).wLen = some n) := by
  unfold HighPerf.ensureBuffers
  rw [hu]
  by_cases hd : d = 3 <;> simp [hd]

theorem highPerf_local (m : CMachine K) (junk : List ℕ → K) {s : HighPerf K} (hu : s.uLen = none)
    (hσ : ∀ r < R, σ r < R') (hd : d = 2 ∨ d = 3) :
    RowLocal R R' d σ (fun q => (s.interpolate m junk q).2) := by
  intro q q' A' hm hA
  obtain ⟨-, -, x1, y1, z1, -⟩ := ensureBuffers_fields s R d
  obtain ⟨-, -, x2, y2, z2, -⟩ := ensureBuffers_fields s R' d
  obtain ⟨u1, w1⟩ := unused_buffers hu R d
  obtain ⟨u2, w2⟩ := unused_buffers hu R' d
  simp only [HighPerf.interpolate, hm.left, hm.right] at hA ⊢
  have col : ∀ {l l' : List K}, (∀ r < R, l[r]? = l'[σ r]?) → ∀ r < R,
      listCol l (junk []) r = listCol l' (junk []) (σ r) := by
    intro l l' h r hr
    simp only [listCol, h r hr]
  rcases hd with rfl | rfl
  · simp only [if_true, x1, y1, x2, y2, u1, u2] at hA ⊢
    cases hx : s.ix with
    | none => simp [hx] at hA
    | some x =>
      cases hy : s.iy with
      | none => simp [hx, hy] at hA
      | some y =>
        simp only [hx, hy] at hA ⊢
        cases hcx : x.call m R' 2 (fun r c => q'.get [r, c]) (some R') with
        | error e => simp [hcx] at hA
        | ok l0' =>
          obtain ⟨l0, a1, a2⟩ := call_local m x hσ hm hcx
          cases hcy : y.call m R' 2 (fun r c => q'.get [r, c]) (some R') with
          | error e => simp [hcx, hcy] at hA
          | ok l1' =>
            obtain ⟨l1, b1, b2⟩ := call_local m y hσ hm hcy
            simp only [hcx, hcy, Except.ok.injEq] at hA
            subst hA
            simp only [a1, b1]
            exact ⟨_, rfl, (((ColMatch.start junk junk hm).setCol 0 (col a2)).setCol 1
              (col b2)).rowsMatch fun c hc => by omega⟩
  · simp only [(by decide : ¬ (3 : ℕ) = 2), if_false, if_true, x1, y1, z1, x2, y2, z2, u1, u2, w1 rfl,
      w2 rfl] at hA ⊢
    cases hx : s.ix with
    | none => simp [hx] at hA
    | some x =>
      cases hy : s.iy with
      | none => simp [hx, hy] at hA
      | some y =>
        cases hz : s.iz with
        | none => simp [hx, hy, hz] at hA
        | some z =>
          simp only [hx, hy, hz] at hA ⊢
          cases hcx : x.call m R' 3 (fun r c => q'.get [r, c]) (some R') with
          | error e => simp [hcx] at hA
          | ok l0' =>
            obtain ⟨l0, a1, a2⟩ := call_local m x hσ hm hcx
            cases hcy : y.call m R' 3 (fun r c => q'.get [r, c]) (some R') with
            | error e => simp [hcx, hcy] at hA
            | ok l1' =>
              obtain ⟨l1, b1, b2⟩ := call_local m y hσ hm hcy
              cases hcz : z.call m R' 3 (fun r c => q'.get [r, c]) (some R') with
              | error e => simp [hcx, hcy, hcz] at hA
              | ok l2' =>
                obtain ⟨l2, c1, c2⟩ := call_local m z hσ hm hcz
                simp only [hcx, hcy, hcz, Except.ok.injEq] at hA
                subst hA
                simp only [a1, b1, c1]
                exact ⟨_, rfl, ((((ColMatch.start junk junk hm).setCol 0 (col a2)).setCol 1
                  (col b2)).setCol 2 (col c2)).rowsMatch fun c hc => by omega⟩

/-- The interpolator is new, fills all `d` columns, and a user velocity function treats points
independently. -/
def AnyInterp.Independent (d : ℕ) : AnyInterp K → Prop
  | .scatter _ => d = 2
  | .highPerf s => (d = 2 ∨ d = 3) ∧ s.uLen = none
  | .grid s => d = 2 ∨ (d = 3 ∧ s.gridShape.length = 3 ∧ (s.ix ≠ none → s.ndim = some 3))
  | .analytical s => ∀ f, s.fn = some f →
      ∀ R R' σ, (∀ r < R, σ r < R') → RowLocal R R' d σ (f s.time)

theorem AnyInterp.Independent.unused {d : ℕ} {I : AnyInterp K} (h : I.Independent d) :
    I.Unused := by
  cases I with
  | highPerf s => exact h.2
  | scatter s => trivial
  | grid s => trivial
  | analytical s => trivial

theorem Independent.update {d : ℕ} {I : AnyInterp K} (h : I.Independent d) (sp : SciPy K)
    (v : NDArray K) (p : Option (NDArray K)) (hn : (I.update sp v p).2 = none) :
    (I.update sp v p).1.Independent d ∧
      (∀ s, (I.update sp v p).1 = .grid s → d = 3 → s.ndim = some 3) := by
  cases I with
  | scatter s => exact ⟨h, fun _ hs => by cases hs⟩
  | highPerf s =>
    exact ⟨⟨h.1, (highPerf_update_config s v p).2.1.trans h.2⟩, fun _ hs => by cases hs⟩
  | analytical s => exact ⟨h, fun _ hs => by cases hs⟩
  | grid s =>
    rcases h with h | ⟨h1, h2, h3⟩
    · exact ⟨.inl h, fun _ _ hd => by omega⟩
    · have e := grid_update_ndim sp s v p h2 h3 hn
      refine ⟨.inr ⟨h1, ?_, fun _ => e⟩, fun s' hs _ => ?_⟩
      · exact (congrArg List.length (grid_update_config sp s v p).2).trans h2
      · simp only [AnyInterp.update, AnyInterp.grid.injEq] at hs
        rw [← hs]; exact e

/-- After at least one update the velocities are row-local. -/
theorem updated_local {env : Env K F} (hsp : env.sp.RowLocal) {src : Source K} {I0 : AnyInterp K}
    (hI : I0.Independent d) (hA : ∀ s, src = .analytical s → ∀ g, I0 = .grid g → d = 2)
    (hσ : ∀ r < R, σ r < R') (h3 : R ≠ 3) (h3' : R' ≠ 3) (n : ℕ)
    (hok : (src.updated env I0 (n + 1)).2 = none) :
    RowLocal R R' d σ ((src.updated env I0 (n + 1)).1.velocity env) := by
  have H : ∀ n, (src.updated env I0 n).2 = none →
      (src.updated env I0 n).1.Independent d ∧
      (1 ≤ n → ∀ s, (src.updated env I0 n).1 = .grid s → d = 3 → s.ndim = some 3) ∧
      (∀ s, src = .analytical s → (src.updated env I0 n).1 = I0) := by
    intro n
    induction n with
    | zero => intro _; exact ⟨hI, fun h => by omega, fun _ _ => rfl⟩
    | succ n ih =>
      intro h
      simp only [Source.updated] at h ⊢
      rcases hu : src.updated env I0 n with ⟨J, _ | e⟩
      · rw [hu] at h ih
        obtain ⟨i1, i2, i3⟩ := ih rfl
        simp only at h i1 i2 i3 ⊢
        cases src with
        | analytical s =>
          have e := i3 s rfl
          subst e
          refine ⟨hI, fun _ g hg hd => ?_, fun _ _ => rfl⟩
          have := hA s rfl g hg
          omega
        | file s =>
          simp only [Source.updateInterp] at h ⊢
          cases hdata : s.dataForStep env.fs n with
          | error e => simp [hdata] at h
          | ok vc =>
            obtain ⟨v, c⟩ := vc
            simp only [hdata] at h ⊢
            obtain ⟨j1, j2⟩ := Independent.update i1 env.sp v c h
            exact ⟨j1, fun _ => j2, fun _ hs => by cases hs⟩
      · rw [hu] at h; simp at h
  obtain ⟨h1, h2, -⟩ := H (n + 1) hok
  generalize (src.updated env I0 (n + 1)).1 = J at h1 h2 ⊢
  cases J with
  | scatter s =>
    have h1 : d = 2 := h1
    subst h1
    exact scatter_local hsp env.junk s hσ h3 h3'
  | highPerf s => exact highPerf_local env.m env.junk h1.2 hσ h1.1
  | grid s =>
    refine grid_local hsp env.junk s hσ ?_
    rcases h1 with h | ⟨h, -, -⟩
    · exact .inl h
    · exact .inr ⟨h, h2 (by omega) s rfl h⟩
  | analytical s =>
    intro q q' A' hm hq
    have hq : s.interpolate q' = .ok A' := hq
    show ∃ A, s.interpolate q = .ok A ∧ _
    unfold AnalyticalState.interpolate at hq ⊢
    cases hf : s.fn with
    | none => rw [hf] at hq; cases hq
    | some f =>
      rw [hf] at hq
      exact h1 f hf R R' σ hσ q q' A' hm hq

end

end Verif
