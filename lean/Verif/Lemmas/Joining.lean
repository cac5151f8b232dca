import Verif.Lemmas.LocalInterp
import Verif.Lemmas.FlowOn

/-!
# Queries made of rows of several answered queries

`RowLocal` of `Spec/Groups.lean` goes from an answered query to queries made of its rows.  Here the
rows come from several answered queries.
-/

set_option linter.unusedSectionVars false

namespace Verif

section
variable {K : Type} {α : Type}

/-- Every row of `q` is a row of a query that is answered. -/
def Answered (d R : ℕ) (call : NDArray K → Py α) (q : NDArray K) : Prop :=
  ∀ r < R, ∃ (R' : ℕ) (q' : NDArray K) (a' : α) (r' : ℕ), q'.shape = [R', d] ∧ R' ≠ 3 ∧ r' < R' ∧
    rowOf q d r = rowOf q' d r' ∧ call q' = .ok a'

/-- A query is answered when each of its rows occurs in a query that is answered.  (Not asked for
without rows and for three rows, where the scattered-data interpolators differ.) -/
def Joining (d : ℕ) (call : NDArray K → Py α) : Prop :=
  ∀ (R : ℕ) (q : NDArray K), 0 < R → R ≠ 3 → q.shape = [R, d] → Answered d R call q →
    ∃ a, call q = .ok a

/-- The SciPy interpolators evaluate query points independently, as far as errors go. -/
structure SciPy.Joining (sp : SciPy K) : Prop where
  scatter : ∀ me p v d, Verif.Joining d (sp.scatterCall me p v)
  grid : ∀ me axes v d, Verif.Joining d (sp.gridCall me axes v)

theorem Answered.imp {β : Type} {d R : ℕ} {call : NDArray K → Py α} {call' : NDArray K → Py β}
    {q : NDArray K} (h : Answered d R call q)
    (hc : ∀ (R' : ℕ) (q' : NDArray K) a, q'.shape = [R', d] → R' ≠ 3 → call q' = .ok a →
      ∃ b, call' q' = .ok b) :
    Answered d R call' q := fun r hr =>
  let ⟨R', q', a', r', h1, h2, h3, h4, h5⟩ := h r hr
  let ⟨b, hb⟩ := hc R' q' a' h1 h2 h5
  ⟨R', q', b, r', h1, h2, h3, h4, hb⟩

/-- At least one query is answered. -/
theorem Answered.some {d R : ℕ} {call : NDArray K → Py α} {q : NDArray K}
    (h : Answered d R call q) (hR : 0 < R) :
    ∃ (R' : ℕ) (q' : NDArray K) (a' : α), q'.shape = [R', d] ∧ R' ≠ 3 ∧ call q' = .ok a' :=
  let ⟨R', q', a', _, h1, h2, _, _, h5⟩ := h 0 hR
  ⟨R', q', a', h1, h2, h5⟩

/-! ## Where a velocity is known -/

/-- The array of row `r` of `q` alone. -/
def oneRow (q : NDArray K) (d r : ℕ) : NDArray K := ⟨[1, d], fun idx => q.get [r, idx.getD 1 0]⟩

theorem oneRow_matches {q : NDArray K} {R d r : ℕ} (hq : q.shape = [R, d]) :
    RowsMatch 1 R d (fun _ => r) (oneRow q d r) q := by
  refine ⟨rfl, hq, fun i hi => ?_⟩
  funext c
  rfl

/-- Independent rows: the velocity is a function on a region, and queries that leave the region are
not answered. -/
theorem velocity_region {d : ℕ} {vel : Velocity K}
    (hl : ∀ (R R' : ℕ) (σ : ℕ → ℕ), (∀ r < R, σ r < R') → R ≠ 3 → R' ≠ 3 → RowLocal R R' d σ vel)
    (hj : Joining d vel) :
    ∃ (S : Set (Fin d → K)) (g : (Fin d → K) → Fin d → K), ∀ R, 0 < R → R ≠ 3 →
      PointwiseOn S R vel g ∧ ∀ q A, q.shape = [R, d] → vel q = .ok A → ∀ r < R, rowOf q d r ∈ S := by
  classical
  let P : (Fin d → K) → NDArray K → NDArray K → Prop := fun z q A =>
    q.shape = [1, d] ∧ rowOf q d 0 = z ∧ vel q = .ok A
  have huniq : ∀ z q A q' A', P z q A → P z q' A' → rowOf A d 0 = rowOf A' d 0 := by
    rintro z q A q' A' ⟨a1, a2, a3⟩ ⟨b1, b2, b3⟩
    obtain ⟨B, c1, c2⟩ := hl 1 1 id (fun r hr => hr) (by omega) (by omega) q q' A'
      ⟨a1, b1, fun r hr => by
        obtain rfl : r = 0 := by omega
        rw [a2]; exact b2.symm⟩ b3
    rw [a3] at c1
    cases c1
    exact c2.rows 0 (by omega)
  have hin : ∀ (R : ℕ) (q A : NDArray K), R ≠ 3 → q.shape = [R, d] → vel q = .ok A → ∀ r < R,
      ∃ B, P (rowOf q d r) (oneRow q d r) B ∧ A.shape = [R, d] ∧ rowOf B d 0 = rowOf A d r := by
    intro R q A h3 hq hA r hr
    obtain ⟨B, c1, c2⟩ := hl 1 R (fun _ => r) (fun _ _ => hr) (by omega) h3 _ _ A
      (oneRow_matches hq) hA
    exact ⟨B, ⟨rfl, (oneRow_matches hq).rows 0 (by omega), c1⟩, c2.right, c2.rows 0 (by omega)⟩
  refine ⟨{z | ∃ q A, P z q A}, fun z => if h : ∃ q A, P z q A then
    rowOf h.choose_spec.choose d 0 else z, fun R hR h3 => ⟨fun q hq hS => ?_, ?_⟩⟩
  · obtain ⟨A, hA⟩ := hj R q hR h3 hq fun r hr => by
      obtain ⟨q', A', b1, b2, b3⟩ := hS r hr
      exact ⟨1, q', A', 0, b1, by omega, by omega, b2.symm, b3⟩
    refine ⟨A, hA, (hin R q A h3 hq hA 0 hR).choose_spec.2.1, fun r hr => ?_⟩
    obtain ⟨B, b1, -, b3⟩ := hin R q A h3 hq hA r hr
    have hx : ∃ q' A', P (rowOf q d r) q' A' := ⟨_, _, b1⟩
    beta_reduce
    rw [dif_pos hx, ← b3]
    exact huniq _ _ _ _ _ b1 hx.choose_spec.choose_spec
  · intro q A hq hA r hr
    obtain ⟨B, b1, -, -⟩ := hin R q A h3 hq hA r hr
    exact ⟨_, _, b1⟩

end

/-! ## Steps and loops that succeed -/

section
variable {K : Type*} [Add K] [Sub K] [Mul K] [Div K] [NumLits K]

theorem fillFrom_answered {b x v : NDArray K} {vel : Velocity K} (h : fillFrom b vel x = .ok v) :
    ∃ A, vel x = .ok A := by
  unfold fillFrom at h
  cases hA : vel x with
  | error e => rw [hA] at h; cases h
  | ok A => exact ⟨A, rfl⟩

/-- A step that succeeds has asked within the region only. -/
theorem step_asked (junk : List ℕ → K) {vel : Velocity K} {R d : ℕ} {S : Set (Fin d → K)}
    {g : (Fin d → K) → Fin d → K} (hv : PointwiseOn S R vel g)
    (hx : ∀ q A, q.shape = [R, d] → vel q = .ok A → ∀ r < R, rowOf q d r ∈ S) (h : K) (I I' : Integ K)
    (hI : I.Fits R d) (pos pos' : NDArray K) (hp : pos.shape = [R, d])
    (hs : I.step junk vel h pos = (I', .ok pos')) :
    ∀ r < R, ∀ z ∈ stages I.kind g h (rowOf pos d r), z ∈ S := by
  cases I with
  | euler buf =>
    simp only [Integ.step, eulerStep] at hs
    cases hf : fillFrom (reuseOrAlloc junk buf pos) vel pos with
    | error e => rw [hf] at hs; simp at hs
    | ok v =>
      obtain ⟨A, hA⟩ := fillFrom_answered hf
      intro r hr z hz
      simp only [stages, Integ.kind, List.mem_singleton] at hz
      rw [hz]
      exact hx pos A hp hA r hr
  | ab2 prev buf =>
    simp only [Integ.step, ab2Step] at hs
    cases hf : fillFrom (reuseOrAlloc junk buf pos) vel pos with
    | error e => rw [hf] at hs; simp at hs
    | ok v =>
      obtain ⟨A, hA⟩ := fillFrom_answered hf
      intro r hr z hz
      simp only [stages, Integ.kind, List.mem_singleton] at hz
      rw [hz]
      exact hx pos A hp hA r hr
  | rk4 bufs =>
    obtain ⟨b1, b2, b3, b4, b5⟩ := rk4Bufs_fits junk hI hp
    simp only [Integ.step, rk4Step] at hs
    generalize rk4Bufs junk bufs pos = B at *
    cases e1 : fillFrom B.k1 vel pos with
    | error e => rw [e1] at hs; simp at hs
    | ok k1 =>
      have s1 := fun r hr => hx pos _ hp (fillFrom_answered e1).choose_spec r hr
      obtain ⟨k1', f1, f2, f3⟩ := fillFrom_rows_on hv b1 hp s1
      rw [e1] at f1
      cases f1
      obtain ⟨t1, t2, t3, t4⟩ := stagePoint_rows (c := NumLits.half * h) b5 hp f2
      simp only [e1, t2] at hs
      cases e2 : fillFrom B.k2 vel t1 with
      | error e => rw [e2] at hs; simp at hs
      | ok k2 =>
        have s2 := fun r hr => hx t1 _ t3 (fillFrom_answered e2).choose_spec r hr
        obtain ⟨k2', m1, m2, m3⟩ := fillFrom_rows_on hv b2 t3 s2
        rw [e2] at m1
        cases m1
        obtain ⟨w1, w2, w3, w4⟩ := stagePoint_rows (c := NumLits.half * h) t3 hp m2
        simp only [e2, w2] at hs
        cases e3 : fillFrom B.k3 vel w1 with
        | error e => rw [e3] at hs; simp at hs
        | ok k3 =>
          have s3 := fun r hr => hx w1 _ w3 (fillFrom_answered e3).choose_spec r hr
          obtain ⟨k3', n1, n2, n3⟩ := fillFrom_rows_on hv b3 w3 s3
          rw [e3] at n1
          cases n1
          obtain ⟨y1, y2, y3, y4⟩ := stagePoint_rows (c := h) w3 hp n2
          simp only [e3, y2] at hs
          cases e4 : fillFrom B.k4 vel y1 with
          | error e => rw [e4] at hs; simp at hs
          | ok k4 =>
            have s4 := fun r hr => hx y1 _ y3 (fillFrom_answered e4).choose_spec r hr
            intro r hr z hz
            have a1 := s1 r hr
            have a2 := s2 r hr
            have a3 := s3 r hr
            have a4 := s4 r hr
            rw [t4 r hr, f3 r hr] at a2
            rw [w4 r hr, m3 r hr, t4 r hr, f3 r hr] at a3
            rw [y4 r hr, n3 r hr, w4 r hr, m3 r hr, t4 r hr, f3 r hr] at a4
            simp only [stages, Integ.kind, List.mem_cons, List.not_mem_nil, or_false] at hz
            rcases hz with rfl | rfl | rfl | rfl
            · exact a1
            · exact a2
            · exact a3
            · exact a4

end

section
variable {K F : Type} [Zero K] [One K] [Add K] [Sub K] [Mul K] [Div K] [NatCast K] [IntCast K]
  [Min K] [Max K] [NumLits K] [DecidableEq K]

theorem Source.updated_step {env : Env K F} {src : Source K} {I0 : AnyInterp K} {n : ℕ}
    (h : (src.updated env I0 n).2 = none) :
    src.updated env I0 (n + 1) = src.updateInterp env (src.updated env I0 n).1 n := by
  simp only [Source.updated]
  rcases hn : src.updated env I0 n with ⟨J, _ | e⟩
  · rfl
  · rw [hn] at h
    simp at h

/-- A loop that succeeds has received all its data, and has asked within the regions only. -/
theorem loop_asked (env : Env K F) (src : Source K) (id : String) (queue : Bool)
    {I0 : AnyInterp K} (hI : I0.Unused) (k : Kind) {p : Particles K} {R d : ℕ}
    (hp : p.positions.shape = [R, d]) (g : ℕ → (Fin d → K) → Fin d → K)
    (S : ℕ → Set (Fin d → K)) (n : ℕ)
    (hv : ∀ i < n, (src.updated env I0 (i + 1)).2 = none →
      PointwiseOn (S i) R ((src.updated env I0 (i + 1)).1.velocity env) (g i) ∧
      ∀ q A, q.shape = [R, d] → (src.updated env I0 (i + 1)).1.velocity env q = .ok A →
        ∀ r < R, rowOf q d r ∈ S i) {st : Loop K F}
    (hst : Loop.steps env src id queue (List.range n) ⟨I0, .fresh k, p, []⟩ = (st, none)) :
    (∀ i < n, (src.updated env I0 (i + 1)).2 = none) ∧
    ∀ r < R, ∀ i < n, ∀ z ∈ stages k (g i) src.timestep
      (flowMap k g src.timestep i (rowOf p.positions d r)), z ∈ S i := by
  suffices H : (src.updated env I0 n).2 = none ∧ (∀ i < n, (src.updated env I0 (i + 1)).2 = none) ∧
      (∀ r < R, ∀ i < n, ∀ z ∈ stages k (g i) src.timestep
        (flowMap k g src.timestep i (rowOf p.positions d r)), z ∈ S i) ∧
      ∃ pos, Twin [R, d] (src.updated env I0 n).1 st.interp ∧
      st.particles = { p with positions := pos } ∧
      pos.shape = [R, d] ∧ st.integ.kind = k ∧ st.integ.Fits R d ∧
      (∀ r < R, rowOf pos d r = flowMap k g src.timestep n (rowOf p.positions d r)) ∧
      ∀ r < R, st.integ.prevRow d r = flowPrev k g src.timestep (rowOf p.positions d r) n from
    ⟨H.2.1, H.2.2.1⟩
  induction n generalizing st with
  | zero =>
    simp only [List.range_zero, Loop.steps, Prod.mk.injEq, and_true] at hst
    subst hst
    exact ⟨rfl, fun i hi => by omega, fun _ _ i hi => by omega, p.positions, hI.twin _, rfl, hp,
      Integ.kind_fresh k, Integ.fits_fresh R d k, fun r hr => rfl,
      fun r hr => Integ.prevRow_fresh d r k⟩
  | succ n ih =>
    rw [List.range_succ, Loop.steps_append] at hst
    rcases hn : Loop.steps env src id queue (List.range n) ⟨I0, .fresh k, p, []⟩ with ⟨su, _ | e⟩
    · rw [hn] at hst
      obtain ⟨h0, hup, hS, pos, h2, h3, h4, h5, h6, h7, h8⟩ := ih (fun i hi => hv i (by omega)) hn
      have hdef := Source.updated_step h0
      obtain ⟨u1, u2⟩ := h2.updateInterp env src n
      simp only [Loop.steps, Loop.step] at hst
      rcases hJ : src.updateInterp env su.interp n with ⟨J, _ | e⟩
      · rw [hJ] at u1 u2
        simp only at u1 u2
        have hok : (src.updated env I0 (n + 1)).2 = none := by rw [hdef]; exact u1.symm
        obtain ⟨v1, v2⟩ := hv n (by omega) hok
        rw [hdef] at v1 v2
        have hvJ := u2.pointwiseOn env v1
        have hxJ : ∀ q A, q.shape = [R, d] → J.velocity env q = .ok A → ∀ r < R, rowOf q d r ∈ S n := by
          intro q A hq hA
          rw [u2.velocity env q hq] at hA
          exact v2 q A hq hA
        simp only [hJ, Integ.integrate, h3] at hst
        rcases hs : su.integ.step env.junk (J.velocity env) src.timestep pos with ⟨G, e | y⟩
        · simp [hs] at hst
        · simp only [hs, Prod.mk.injEq, and_true] at hst
          have hask := step_asked env.junk hvJ hxJ src.timestep su.integ G h6 pos y h4 hs
          obtain ⟨G', pos2, f1, f2, f3, f4, f5, f6⟩ := step_rows_on env.junk hvJ src.timestep su.integ
            h6 pos h4 hask
          rw [hs] at f1
          simp only [Prod.mk.injEq, Except.ok.injEq] at f1
          obtain ⟨rfl, rfl⟩ := f1
          subst hst
          refine ⟨hok, fun i hi => ?_, fun r hr i hi z hz => ?_, y, ?_, rfl, f4, f2.trans h5, f3, ?_, ?_⟩
          · rcases Nat.lt_succ_iff_lt_or_eq.1 hi with h | rfl
            · exact hup i h
            · exact hok
          · rcases Nat.lt_succ_iff_lt_or_eq.1 hi with h | rfl
            · exact hS r hr i h z hz
            · refine hask r hr z ?_
              rw [h5, h7 r hr]
              exact hz
          · rw [hdef]
            exact u2.interpolate env.sp env.m env.junk pos h4
          · intro r hr
            rw [f5 r hr, h5, h7 r hr, h8 r hr, flowMap_succ]
          · intro r hr
            rw [f6 r hr, h5, h7 r hr]
            rfl
      · simp [hJ] at hst
    · rw [hn] at hst
      simp at hst

end

end Verif
