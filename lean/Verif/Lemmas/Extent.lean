import Verif.Spec.Extent
import Verif.Lemmas.Memory
import Verif.Lemmas.Interpolate
import Verif.Lemmas.UnitsInterp

/-!
# Two runs whose interpolators behave alike, and the extent of the coordinates
-/

set_option linter.unusedSectionVars false

namespace Verif

open Verif.Units (OptRel)

/-! ## Runs with interpolators that behave alike -/

section
variable {K F : Type} [Zero K] [One K] [Add K] [Sub K] [Mul K] [Div K] [NatCast K] [IntCast K]
  [Min K] [Max K] [NumLits K] [DecidableEq K]

/-- A relation between interpolators of two runs that is kept by the loop. -/
structure Mimics (env env' : Env K F) (src : Source K) (R : AnyInterp K → AnyInterp K → Prop) :
    Prop where
  update : ∀ I I' i, R I I' →
    (src.updateInterp env' I' i).2 = (src.updateInterp env I i).2 ∧
    R (src.updateInterp env I i).1 (src.updateInterp env' I' i).1
  interpolate : ∀ I I' q, R I I' →
    (I'.interpolate env'.sp env'.m env'.junk q).2 = (I.interpolate env.sp env.m env.junk q).2 ∧
    R (I.interpolate env.sp env.m env.junk q).1 (I'.interpolate env'.sp env'.m env'.junk q).1

theorem Mimics.step {env env' : Env K F} {src : Source K} {R : AnyInterp K → AnyInterp K → Prop}
    (h : Mimics env env' src R) (hj : env'.junk = env.junk) (id : String) (queue : Bool) (i : ℕ)
    {a b : Loop K F} (hR : R a.interp b.interp) (hab : b = { a with interp := b.interp }) :
    (b.step env' src id queue i).2 = (a.step env src id queue i).2 ∧
    R (a.step env src id queue i).1.interp (b.step env' src id queue i).1.interp ∧
    (b.step env' src id queue i).1 = { (a.step env src id queue i).1 with
      interp := (b.step env' src id queue i).1.interp } := by
  obtain ⟨I', G, p, tr⟩ := b
  obtain ⟨I, G', p', tr'⟩ := a
  simp only [Loop.mk.injEq] at hab
  obtain ⟨-, rfl, rfl, rfl⟩ := hab
  simp only at hR
  obtain ⟨hu1, hu2⟩ := h.update I I' i hR
  unfold Loop.step
  simp only
  rcases hx : src.updateInterp env I i with ⟨J, e⟩
  rcases hy : src.updateInterp env' I' i with ⟨J', e'⟩
  rw [hx, hy] at hu1 hu2
  simp only at hu1 hu2
  subst hu1
  cases e' with
  | some e => exact ⟨rfl, hu2, rfl⟩
  | none =>
    simp only
    have hv : J'.velocity env' = J.velocity env := by
      funext q
      exact (h.interpolate J J' q hu2).1
    rw [hv, hj]
    rcases G.integrate env.junk (J.velocity env) src.timestep p with ⟨G2, p2, e2⟩
    have hq := (h.interpolate J J' p.positions hu2).2
    rw [hj] at hq
    cases e2 with
    | some e => exact ⟨rfl, hq, rfl⟩
    | none => exact ⟨rfl, hq, rfl⟩

theorem Mimics.steps {env env' : Env K F} {src : Source K} {R : AnyInterp K → AnyInterp K → Prop}
    (h : Mimics env env' src R) (hj : env'.junk = env.junk) (id : String) (queue : Bool) :
    ∀ (l : List ℕ) {a b : Loop K F}, R a.interp b.interp → b = { a with interp := b.interp } →
    (Loop.steps env' src id queue l b).2 = (Loop.steps env src id queue l a).2 ∧
    (Loop.steps env' src id queue l b).1 = { (Loop.steps env src id queue l a).1 with
      interp := (Loop.steps env' src id queue l b).1.interp } := by
  intro l
  induction l with
  | nil => intro a b _ hab; exact ⟨rfl, hab⟩
  | cons i l ih =>
    intro a b hR hab
    obtain ⟨h1, h2, h3⟩ := h.step hj id queue i hR hab
    unfold Loop.steps
    rcases hx : a.step env src id queue i with ⟨a', e⟩
    rcases hy : b.step env' src id queue i with ⟨b', e'⟩
    rw [hx, hy] at h1 h2 h3
    simp only at h1 h2 h3
    subst h1
    cases e' with
    | some e => exact ⟨rfl, h3⟩
    | none => exact ih h2 h3

/-- The runs of two solvers whose interpolators behave alike: same result, same events. -/
theorem Mimics.run {env env' : Env K F} {src : Source K} {R : AnyInterp K → AnyInterp K → Prop}
    (h : Mimics env env' src R) (hj : env'.junk = env.junk) (ht : env'.timeName = env.timeName)
    (ha : env'.abs = env.abs) (h2 : env'.ftle2 = env.ftle2) (h3 : env'.ftle3 = env.ftle3)
    (hp : src.getParticles env'.fs = src.getParticles env.fs) (G : Integ K) (queue : Bool)
    (w : Option (WriteFn K F)) {I I' : AnyInterp K} (hR : R I I') :
    ((⟨src, I', G⟩ : Solver K).run env' queue w).result =
      ((⟨src, I, G⟩ : Solver K).run env queue w).result ∧
    ((⟨src, I', G⟩ : Solver K).run env' queue w).trace =
      ((⟨src, I, G⟩ : Solver K).run env queue w).trace := by
  have hid : src.id env' = src.id env := by
    cases src with
    | file s => rfl
    | analytical s => simp only [Source.id, ht]
  have hc : ∀ p n dt, computeFtle env' p n dt = computeFtle env p n dt := by
    intro p n dt
    unfold computeFtle
    rw [ha, h2, h3]
  unfold Solver.run
  simp only [hp, hid]
  cases src.getParticles env.fs with
  | error e => exact ⟨rfl, rfl⟩
  | ok p =>
    simp only
    cases src.id env with
    | error e => exact ⟨rfl, rfl⟩
    | ok id =>
      simp only
      obtain ⟨s1, s2⟩ := h.steps hj id queue (List.range src.numSteps)
        (a := ⟨I, G, p, []⟩) (b := ⟨I', G, p, []⟩) hR rfl
      rcases hx : Loop.steps env src id queue (List.range src.numSteps) ⟨I, G, p, []⟩ with ⟨a, e⟩
      rcases hy : Loop.steps env' src id queue (List.range src.numSteps) ⟨I', G, p, []⟩ with ⟨b, e'⟩
      rw [hx, hy] at s1 s2
      simp only at s1 s2
      subst s1
      rw [s2]
      cases e' with
      | some e => exact ⟨rfl, rfl⟩
      | none =>
        simp only [hc]
        cases computeFtle env a.particles src.numSteps src.timestep with
        | error e => exact ⟨rfl, rfl⟩
        | ok f =>
          cases w with
          | none => exact ⟨rfl, rfl⟩
          | some g =>
            simp only
            cases g ("ftle_" ++ id) f a.particles.initialCentroid with
            | some e => exact ⟨rfl, rfl⟩
            | none => exact ⟨rfl, rfl⟩

end

/-! ## Minimum and maximum -/

section
variable {K : Type} [LinearOrder K]

theorem le_foldl_min (y : K) : ∀ (l : List K) (x : K), y ≤ l.foldl min x ↔ ∀ z ∈ x :: l, y ≤ z := by
  intro l
  induction l with
  | nil => intro x; simp
  | cons a l ih =>
    intro x
    rw [List.foldl_cons, ih]
    simp [and_assoc]

theorem foldl_max_le (y : K) : ∀ (l : List K) (x : K), l.foldl max x ≤ y ↔ ∀ z ∈ x :: l, z ≤ y := by
  intro l
  induction l with
  | nil => intro x; simp
  | cons a l ih =>
    intro x
    rw [List.foldl_cons, ih]
    simp [and_assoc]

theorem npMin_congr {a b : NDArray K} {N : ℕ} {f g : ℕ → K}
    (ha : a.toList = (List.range N).map f) (hb : b.toList = (List.range N).map g)
    (h : ∀ x, (∀ i < N, x ≤ g i) ↔ ∀ i < N, x ≤ f i) : npMin b = npMin a := by
  unfold npMin
  rw [ha, hb]
  cases N with
  | zero => rfl
  | succ n =>
    rw [List.range_succ_eq_map]
    simp only [List.map_cons]
    congr 1
    refine eq_of_forall_le_iff fun y => ?_
    rw [le_foldl_min, le_foldl_min]
    have key : ∀ u : ℕ → K, (∀ z ∈ u 0 :: ((List.range n).map Nat.succ).map u, y ≤ z) ↔
        ∀ i < n + 1, y ≤ u i := by
      intro u
      rw [← List.map_cons, ← List.range_succ_eq_map]
      simp
    rw [key, key]
    exact h y

theorem npMax_congr {a b : NDArray K} {N : ℕ} {f g : ℕ → K}
    (ha : a.toList = (List.range N).map f) (hb : b.toList = (List.range N).map g)
    (h : ∀ x, (∀ i < N, g i ≤ x) ↔ ∀ i < N, f i ≤ x) : npMax b = npMax a := by
  unfold npMax
  rw [ha, hb]
  cases N with
  | zero => rfl
  | succ n =>
    rw [List.range_succ_eq_map]
    simp only [List.map_cons]
    congr 1
    refine eq_of_forall_ge_iff fun y => ?_
    rw [foldl_max_le, foldl_max_le]
    have key : ∀ u : ℕ → K, (∀ z ∈ u 0 :: ((List.range n).map Nat.succ).map u, z ≤ y) ↔
        ∀ i < n + 1, u i ≤ y := by
      intro u
      rw [← List.map_cons, ← List.range_succ_eq_map]
      simp
    rw [key, key]
    exact h y

theorem row_toList {p : NDArray K} {d N : ℕ} (hp : p.shape = [d, N]) (c : ℕ) :
    (p.row c).toList = (List.range N).map fun k => p.get [c, k] := by
  simp only [NDArray.toList, NDArray.row, NDArray.size, hp, List.tail_cons]
  have hN : [N].prod = N := by simp
  rw [hN]
  refine List.map_congr_left fun k hk => ?_
  have : decC [N] k = [k] := by
    simp [decC]
  rw [this]

variable {p p' : NDArray K} {d N : ℕ}

theorem SameExtent.bounds (h : SameExtent p p') (hp : p.shape = [d, N]) {c : ℕ} (hc : c < d) :
    (∀ x, (∀ i < N, x ≤ p'.get [c, i]) ↔ ∀ i < N, x ≤ p.get [c, i]) ∧
    ∀ x, (∀ i < N, p'.get [c, i] ≤ x) ↔ ∀ i < N, p.get [c, i] ≤ x := by
  have hv : ∀ i, ValidIdx p.shape [c, i] ↔ i < N := fun i => by rw [hp]; simp [hc]
  constructor <;> intro x
  · have := h.lower c x
    simpa only [hv] using this
  · have := h.upper c x
    simpa only [hv] using this

theorem SameExtent.gridAxis (h : SameExtent p p') (hp : p.shape = [d, N]) {c : ℕ} (hc : c < d)
    (n : ℕ) : Verif.gridAxis p' c n = Verif.gridAxis p c n := by
  obtain ⟨h1, h2⟩ := h.bounds hp hc
  unfold Verif.gridAxis
  rw [npMin_congr (row_toList hp c) (row_toList (h.shape.trans hp) c) h1,
    npMax_congr (row_toList hp c) (row_toList (h.shape.trans hp) c) h2]

variable [Sub K] [Div K] [NatCast K]

theorem SameExtent.build (h : SameExtent p p') {gs : List ℕ} (hp : p.shape = [gs.length, N])
    (v : NDArray K) : HighPerf.build gs v p' = HighPerf.build gs v p := by
  have hp' := h.shape.trans hp
  have hax : ∀ {c c' : NDArray K}, gs.prod = N → p.reshapeC (gs.length :: gs) = .ok c →
      p'.reshapeC (gs.length :: gs) = .ok c' → ∀ j < gs.length, ∀ n,
      axisOf (c'.row j) n = axisOf (c.row j) n := by
    intro c c' hN hc hc' j hj n
    obtain ⟨h1, h2⟩ := h.bounds hp hj
    subst hN
    unfold axisOf
    rw [npMin_congr (coords_row_toList hp hc hj) (coords_row_toList hp' hc' hj) h1,
      npMax_congr (coords_row_toList hp hc hj) (coords_row_toList hp' hc' hj) h2]
  unfold HighPerf.build
  by_cases hs : gs.length * gs.prod = gs.length * N
  · by_cases h0 : gs.length = 0
    · have : gs = [] := List.length_eq_zero_iff.1 h0
      subst this
      simp [NDArray.reshapeC, hp, hp']
    have hN : gs.prod = N := Nat.eq_of_mul_eq_mul_left (by omega) hs
    obtain ⟨c, hc⟩ : ∃ c, p.reshapeC (gs.length :: gs) = .ok c := by
      unfold NDArray.reshapeC
      rw [hp, if_pos (by simp [hN])]
      exact ⟨_, rfl⟩
    obtain ⟨c', hc'⟩ : ∃ c, p'.reshapeC (gs.length :: gs) = .ok c := by
      unfold NDArray.reshapeC
      rw [hp', if_pos (by simp [hN])]
      exact ⟨_, rfl⟩
    have key := hax hN hc hc'
    rw [hc, hc']
    simp only
    match gs, key with
    | [], _ => rfl
    | [_], _ => rfl
    | [nx, ny], key => simp only [key 0 (by simp), key 1 (by simp)]
    | [nx, ny, nz], key => simp only [key 0 (by simp), key 1 (by simp), key 2 (by simp)]
    | _ :: _ :: _ :: _ :: _, _ => rfl
  · have e : ∀ q : NDArray K, q.shape = [gs.length, N] →
        q.reshapeC (gs.length :: gs) = .error .valueError := by
      intro q hq
      unfold NDArray.reshapeC
      rw [hq, if_neg (by simpa [eq_comm] using hs)]
    rw [e p hp, e p' hp']

end

/-! ## Interpolators on a grid -/

section
variable {K F : Type} [Zero K] [One K] [Add K] [Sub K] [Mul K] [Div K] [NatCast K] [IntCast K]
  [LinearOrder K] [NumLits K]

/-- Interpolators that differ only in coordinates with the same extent. -/
def ExtentRel : AnyInterp K → AnyInterp K → Prop
  | .highPerf s, .highPerf s' => s' = { s with points := s'.points }
  | .grid s, .grid s' => s' = { s with points := s'.points } ∧ OptRel SameExtent s.points s'.points
  | _, _ => False

/-- Coordinates fit the grid of the fast interpolator. -/
def FitsGrid (I : AnyInterp K) (p : NDArray K) : Prop :=
  match I with
  | .highPerf s => ∃ N, p.shape = [s.gridShape.length, N]
  | _ => True

theorem SameExtent.initialize {sp : SciPy K} {s : GridState K} {p p' : NDArray K}
    (h : SameExtent p p') (hs : s.points = some p) :
    (GridState.initialize sp { s with points := some p' }).2 = (s.initialize sp).2 ∧
    (GridState.initialize sp { s with points := some p' }).1 =
      { (s.initialize sp).1 with points := some p' } ∧ (s.initialize sp).1.points = some p := by
  obtain ⟨m, gs, vo, po, nd, ix, iy, iz⟩ := s
  simp only at hs
  subst hs
  unfold GridState.initialize
  simp only
  cases vo with
  | none => exact ⟨rfl, rfl, rfl⟩
  | some v =>
    simp only [h.shape]
    match hp : p.shape with
    | [] => exact ⟨rfl, rfl, rfl⟩
    | [_] => exact ⟨rfl, rfl, rfl⟩
    | _ :: _ :: _ :: _ => exact ⟨rfl, rfl, rfl⟩
    | [d, N] =>
      simp only
      split
      · exact ⟨rfl, rfl, rfl⟩
      split
      · exact ⟨rfl, rfl, rfl⟩
      split
      · rw [h.gridAxis hp (by omega), h.gridAxis hp (by omega)]
        split
        · exact ⟨rfl, rfl, rfl⟩
        split
        · exact ⟨rfl, rfl, rfl⟩
        split
        · exact ⟨rfl, rfl, rfl⟩
        split <;> exact ⟨rfl, rfl, rfl⟩
      · rw [h.gridAxis hp (by omega), h.gridAxis hp (by omega), h.gridAxis hp (by omega)]
        split
        · exact ⟨rfl, rfl, rfl⟩
        split
        · exact ⟨rfl, rfl, rfl⟩
        split
        · exact ⟨rfl, rfl, rfl⟩
        split
        · exact ⟨rfl, rfl, rfl⟩
        split
        · exact ⟨rfl, rfl, rfl⟩
        split <;> exact ⟨rfl, rfl, rfl⟩
      · exact ⟨rfl, rfl, rfl⟩

theorem highPerf_update_extent {s : HighPerf K} (x : Option (NDArray K)) (v : NDArray K)
    {p p' : Option (NDArray K)} (hp : OptRel SameExtent p p')
    (hf : ∀ y, p = some y → ∃ N, y.shape = [s.gridShape.length, N]) :
    (HighPerf.update { s with points := x } v p').2 = (s.update v p).2 ∧
    (HighPerf.update { s with points := x } v p').1 = { (s.update v p).1 with
      points := (HighPerf.update { s with points := x } v p').1.points } := by
  obtain ⟨gs, vo, po, ix, iy, iz, ul, wl⟩ := s
  rcases hp.cases with ⟨rfl, rfl⟩ | ⟨a, b, rfl, rfl, hab⟩
  · unfold HighPerf.update
    simp only
    cases ix with
    | none =>
      simp only
      cases iz with
      | none => exact ⟨rfl, rfl⟩
      | some z =>
        simp only
        split <;> exact ⟨rfl, rfl⟩
    | some a =>
      cases iy with
      | none =>
        simp only
        cases iz with
        | none => exact ⟨rfl, rfl⟩
        | some z =>
          simp only
          split <;> exact ⟨rfl, rfl⟩
      | some b =>
        simp only
        split
        · exact ⟨rfl, rfl⟩
        split
        · exact ⟨rfl, rfl⟩
        cases iz with
        | none => exact ⟨rfl, rfl⟩
        | some z =>
          simp only
          split <;> exact ⟨rfl, rfl⟩
  · obtain ⟨N, hN⟩ := hf a rfl
    unfold HighPerf.update HighPerf.initialize
    simp only at hN ⊢
    rw [hab.build hN]
    split <;> exact ⟨rfl, rfl⟩

theorem grid_update_extent {sp : SciPy K} {s : GridState K} {x : Option (NDArray K)}
    (hx : OptRel SameExtent s.points x) (v : NDArray K)
    {p p' : Option (NDArray K)} (hp : OptRel SameExtent p p') :
    (GridState.update sp { s with points := x } v p').2 = (s.update sp v p).2 ∧
    (GridState.update sp { s with points := x } v p').1 = { (s.update sp v p).1 with
      points := (GridState.update sp { s with points := x } v p').1.points } ∧
    OptRel SameExtent (s.update sp v p).1.points
      (GridState.update sp { s with points := x } v p').1.points := by
  have init : ∀ (t : GridState K) (y : Option (NDArray K)), OptRel SameExtent t.points y →
      (GridState.initialize sp { t with points := y }).2 = (t.initialize sp).2 ∧
      (GridState.initialize sp { t with points := y }).1 = { (t.initialize sp).1 with
        points := (GridState.initialize sp { t with points := y }).1.points } ∧
      OptRel SameExtent (t.initialize sp).1.points
        (GridState.initialize sp { t with points := y }).1.points := by
    intro t y hy
    rcases hy.cases with ⟨e, rfl⟩ | ⟨a, b, e, rfl, hab⟩
    · have ht : { t with points := none } = t := by rw [← e]
      rw [ht]
      refine ⟨rfl, rfl, ?_⟩
      have : (t.initialize sp).1.points = none := by
        unfold GridState.initialize
        rw [e]
        split
        · rename_i h; cases h
        · exact e
      rw [this]
      trivial
    · obtain ⟨h1, h2, h3⟩ := hab.initialize (sp := sp) e
      refine ⟨h1, ?_, ?_⟩
      · rw [h2]
      · rw [h2, h3]
        exact hab
  obtain ⟨m, gs, vo, po, nd, ix, iy, iz⟩ := s
  simp only at hx
  unfold GridState.update
  rcases hp.cases with ⟨rfl, rfl⟩ | ⟨a, b, rfl, rfl, hab⟩
  · cases ix with
    | none => exact init ⟨m, gs, some v, po, nd, none, iy, iz⟩ x hx
    | some o =>
      simp only
      split
      · split
        · exact ⟨rfl, rfl, hx⟩
        · split <;> exact ⟨rfl, rfl, hx⟩
      · split
        · exact ⟨rfl, rfl, hx⟩
        split
        · exact ⟨rfl, rfl, hx⟩
        split
        · exact ⟨rfl, rfl, hx⟩
        split
        · exact ⟨rfl, rfl, hx⟩
        split
        · exact ⟨rfl, rfl, hx⟩
        split <;> exact ⟨rfl, rfl, hx⟩
      · exact ⟨rfl, rfl, hx⟩
  · have h := init ⟨m, gs, some v, some a, nd, ix, iy, iz⟩ (some b) hab
    cases ix <;> exact h

theorem ExtentRel.update {sp : SciPy K} {I I' : AnyInterp K} (h : ExtentRel I I') (v : NDArray K)
    {p p' : Option (NDArray K)} (hp : OptRel SameExtent p p') (hf : ∀ x, p = some x → FitsGrid I x) :
    (I'.update sp v p').2 = (I.update sp v p).2 ∧
      ExtentRel (I.update sp v p).1 (I'.update sp v p').1 := by
  cases I with
  | scatter s => exact h.elim
  | analytical s => exact h.elim
  | highPerf s =>
    cases I' with
    | highPerf s' =>
      have h : s' = { s with points := s'.points } := h
      have := highPerf_update_extent (s := s) s'.points v hp hf
      rw [← h] at this
      exact this
    | _ => exact h.elim
  | grid s =>
    cases I' with
    | grid s' =>
      obtain ⟨h, hx⟩ : s' = { s with points := s'.points } ∧ OptRel SameExtent s.points s'.points := h
      have := grid_update_extent (sp := sp) hx v hp
      rw [← h] at this
      exact this
    | _ => exact h.elim

theorem ExtentRel.interpolate {sp : SciPy K} {m : CMachine K} {junk : List ℕ → K}
    {I I' : AnyInterp K} (h : ExtentRel I I') (q : NDArray K) :
    (I'.interpolate sp m junk q).2 = (I.interpolate sp m junk q).2 ∧
      ExtentRel (I.interpolate sp m junk q).1 (I'.interpolate sp m junk q).1 := by
  cases I with
  | scatter s => exact h.elim
  | analytical s => exact h.elim
  | highPerf s =>
    cases I' with
    | highPerf s' =>
      have h : s' = { s with points := s'.points } := h
      have key : ∀ x, (HighPerf.interpolate m junk { s with points := x } q).2 =
          (s.interpolate m junk q).2 ∧ (HighPerf.interpolate m junk { s with points := x } q).1 =
          { (s.interpolate m junk q).1 with
            points := (HighPerf.interpolate m junk { s with points := x } q).1.points } := by
        intro x
        have he : ∀ n d, HighPerf.ensureBuffers { s with points := x } n d =
            { s.ensureBuffers n d with points := x } := by
          intro n d
          unfold HighPerf.ensureBuffers
          simp only
          split
          · rfl
          · split <;> rfl
        unfold HighPerf.interpolate
        simp only [he]
        repeat' split
        all_goals exact ⟨rfl, rfl⟩
      have := key s'.points
      rw [← h] at this
      exact this
    | _ => exact h.elim
  | grid s =>
    cases I' with
    | grid s' =>
      have h' : s' = { s with points := s'.points } := And.left h
      refine ⟨?_, h⟩
      show s'.interpolate sp junk q = s.interpolate sp junk q
      rw [h']
      rfl
    | _ => exact h.elim

end

end Verif
