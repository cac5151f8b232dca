import Verif.Lemmas.FlowMap
import Verif.Lemmas.Jacobian

/-!
# C92: queries do not influence each other
-/

set_option linter.unusedSectionVars false

namespace Verif

variable {K : Type} [Zero K] [One K] [Add K] [Sub K] [Mul K] [Div K] [NatCast K] [IntCast K]
  [Min K] [Max K] [NumLits K] [DecidableEq K]

/-! ## Specification -/

/-- A call on an interpolator object: new data, or a query (which finds some contents in
uninitialised memory). -/
inductive Use (K : Type) where
  | data (v : NDArray K) (p : Option (NDArray K))
  | query (junk : List ℕ → K) (q : NDArray K)

/-- The calls that bring data. -/
def dataOnly : List (Use K) → List (Use K)
  | [] => []
  | .data v p :: us => .data v p :: dataOnly us
  | .query _ _ :: us => dataOnly us

/-- The object after a list of calls, those that raise included. -/
def AnyInterp.after (sp : SciPy K) (m : CMachine K) : List (Use K) → AnyInterp K → AnyInterp K
  | [], I => I
  | .data v p :: us, I => AnyInterp.after sp m us (I.update sp v p).1
  | .query junk q :: us, I => AnyInterp.after sp m us (I.interpolate sp m junk q).1

/-- Number of columns. -/
def NDArray.cols {α : Type} (a : NDArray α) : ℕ := a.shape.getD 1 0

/-! ## Proofs -/

/-- Equal apart from the buffers, which are good for queries with `d` columns. -/
def Twins (d : ℕ) (I J : AnyInterp K) : Prop := ∀ n, Twin [n, d] I J

theorem Twins.query {d : ℕ} {I J : AnyInterp K} (h : Twins d I J) (sp : SciPy K) (m : CMachine K)
    (junk : List ℕ → K) (q : NDArray K) (hq : d = 3 → ∀ n c, q.shape = [n, c] → c = 3) :
    Twins d I (J.interpolate sp m junk q).1 := by
  intro n
  rcases (h n).cases with ⟨rfl, hn⟩ | ⟨s, s', rfl, rfl, h1, h2, h3⟩
  · cases J with
    | highPerf s => exact absurd rfl (hn s)
    | scatter s => rfl
    | grid s => rfl
    | analytical s => rfl
  simp only [AnyInterp.interpolate, Twin]
  rw [highPerf_interpolate_state]
  split
  · rename_i n' c hnd
    refine ⟨(ensureBuffers_noBuf s' n' c).trans h1, h2, ?_⟩
    intro k hk hu
    injection hk with hk1 hk2
    injection hk2 with hk2 _
    subst hk1
    have hc := hq hk2 n' c hnd
    subst hc
    unfold HighPerf.ensureBuffers at hu ⊢
    split at hu
    · rename_i e
      rw [if_pos e]
      exact h3 n (by rw [hk2]) hu
    · rename_i e
      rw [if_neg e]
      simpa using hu
  · exact ⟨h1, h2, h3⟩

theorem Twins.after {d : ℕ} {sp : SciPy K} {m : CMachine K} : ∀ (us : List (Use K)),
    (d = 3 → ∀ junk q, Use.query junk q ∈ us → ∀ n c, q.shape = [n, c] → c = 3) →
    ∀ {I J : AnyInterp K}, Twins d I J →
      Twins d (I.after sp m (dataOnly us)) (J.after sp m us) := by
  intro us
  induction us with
  | nil => exact fun _ I J h => h
  | cons u us ih =>
    intro hq I J h
    have hq' : d = 3 → ∀ junk q, Use.query junk q ∈ us → ∀ n c, q.shape = [n, c] → c = 3 :=
      fun hd junk q hm => hq hd junk q (List.mem_cons_of_mem _ hm)
    cases u with
    | data v p => exact ih hq' fun n => ((h n).update sp v p).2
    | query junk q => exact ih hq' (h.query sp m junk q fun hd => hq hd junk q List.mem_cons_self)

/-- **C92, what holds:** whatever queries have been made between the updates, successful or not, a
query with two columns is answered as if they had not been made; so is a query with three columns if
all earlier ones had three.  Missing: three columns after queries with another number. -/
theorem C92_independent_partial {F : Type} (env : Env K F) {I : AnyInterp K} (hI : I.Unused)
    (us : List (Use K)) {q : NDArray K} {n d : ℕ} (hs : q.shape = [n, d])
    (hq : d = 3 → ∀ junk q', Use.query junk q' ∈ us → q'.cols = 3) :
    ((I.after env.sp env.m us).interpolate env.sp env.m env.junk q).2 =
      ((I.after env.sp env.m (dataOnly us)).interpolate env.sp env.m env.junk q).2 := by
  have h : Twins d I I := fun n => hI.twin _
  have := Twins.after (sp := env.sp) (m := env.m) us (fun hd junk q' hm n c e => by
    have := hq hd junk q' hm
    rw [NDArray.cols, e] at this
    exact this) h n
  exact this.velocity env q hs

/-- **C92: false of the code** for the fast interpolator: if it answers a query of `n` points with
three columns, then after a (rejected) query of `n` points with two columns it does not: `_w_buffer`
is missing. -/
theorem C92_rejected_query_fails {m : CMachine K} {junk : List ℕ → K} {s : HighPerf K}
    (hu : s.uLen = none) (hw : s.wLen = none) (h3 : ∀ x, s.ix = some x → x.axes.length = 3) {n : ℕ} {q q' out : NDArray K} (hq : q.shape = [n, 3])
    (hq' : q'.shape = [n, 2]) (hok : (s.interpolate m junk q).2 = .ok out) :
    (s.interpolate m junk q').2 = .error .indexError ∧
      ((s.interpolate m junk q').1.interpolate m junk q).2 = .error .typeError := by
  have e3 : s.ensureBuffers n 3 = { s with uLen := some n, wLen := some n } := by
    simp [HighPerf.ensureBuffers, hu]
  have e2 : s.ensureBuffers n 2 = { s with uLen := some n } := by
    simp [HighPerf.ensureBuffers, hu]
  unfold HighPerf.interpolate at hok
  rw [hq] at hok
  simp only [e3] at hok
  rw [if_neg (by norm_num), if_pos trivial] at hok
  rcases hx : s.ix with _ | x
  · simp only [hx] at hok; cases hok
  rcases hy : s.iy with _ | y
  · simp only [hx, hy] at hok; cases hok
  rcases hz : s.iz with _ | z
  · simp only [hx, hy, hz] at hok; cases hok
  simp only [hx, hy, hz] at hok
  refine ⟨?_, ?_⟩
  · unfold HighPerf.interpolate
    rw [hq']
    simp [e2, hx, hy, Interp.call, h3 x hx]
  · rw [highPerf_interpolate_state, hq']
    simp only [e2]
    have e : ({ s with uLen := some n } : HighPerf K).ensureBuffers n 3 = { s with uLen := some n } := by
      simp [HighPerf.ensureBuffers]
    unfold HighPerf.interpolate
    rw [hq]
    simp only [e]
    simp only [hx, hy, hz, hw]
    rw [if_neg (by norm_num), if_pos trivial]
    split at hok
    · cases hok
    · rename_i u hu'
      split at hok
      · cases hok
      · rename_i v hv'
        split at hok
        · cases hok
        · rename_i w hw'
          have : z.call m n 3 (fun r c => q.get [r, c]) none = .error .typeError := by
            unfold Interp.call at hw' ⊢
            split at hw'
            · cases hw'
            · rename_i hl
              rw [if_neg hl]
              dsimp only
              split <;> rfl
          rw [this]

/-! ## Example -/

/-- Data on 2 by 2 by 2 nodes. -/
def cube : NDArray ℚ := ⟨[3, 8], fun i => i.getD 1 0⟩

/-- Coordinates `0`, `1` on each axis, first axis slowest. -/
def cubePoints : NDArray ℚ := ⟨[3, 8], fun i =>
  if i.headD 0 = 0 then (i.getD 1 0 / 4 : ℕ) else if i.headD 0 = 1 then (i.getD 1 0 / 2 % 2 : ℕ)
  else (i.getD 1 0 % 2 : ℕ)⟩

/-- One query point. -/
def point (d : ℕ) : NDArray ℚ := ⟨[1, d], fun _ => 1 / 2⟩

/-- The object after its data have arrived. -/
def cubeInterp : HighPerf ℚ := ((HighPerf.fresh [2, 2, 2]).update cube (some cubePoints)).1

/-- What a query answers, entry by entry. -/
def answers (r : Py (NDArray ℚ)) : List ℚ :=
  match r with
  | .ok out => (List.range 3).map fun c => out.get [0, c]
  | .error _ => []

/-- A valid query is answered, a query with two columns is rejected, and the valid query then raises
`TypeError`. -/
example : answers (cubeInterp.interpolate (isoCpp Int.floor Int.cast) (fun _ => 7) (point 3)).2 =
      [7 / 2, 7 / 2, 7 / 2] ∧
    ((cubeInterp.interpolate (isoCpp Int.floor Int.cast) (fun _ => 7) (point 2)).1.interpolate
      (isoCpp Int.floor Int.cast) (fun _ => 7) (point 3)).2 = .error .typeError := by
  have h : answers (cubeInterp.interpolate (isoCpp Int.floor Int.cast) (fun _ => 7) (point 3)).2 =
      [7 / 2, 7 / 2, 7 / 2] := by decide +kernel
  refine ⟨h, ?_⟩
  cases hr : (cubeInterp.interpolate (isoCpp Int.floor Int.cast) (fun _ => 7) (point 3)).2 with
  | error e => rw [hr] at h; cases h
  | ok out =>
    have hx : cubeInterp.ix.map (fun x => x.axes.length) = some 3 := by decide +kernel
    exact (C92_rejected_query_fails (by decide +kernel) (by decide +kernel)
      (fun x e => by rw [e] at hx; exact Option.some.inj hx) rfl rfl hr).2

/-- Queries of one and two points between two updates of this object: the hypotheses of the positive
theorem. -/
example {F : Type} (env : Env ℚ F) : (((AnyInterp.highPerf (HighPerf.fresh [2, 2, 2])).after env.sp env.m
      [.data cube (some cubePoints), .query (fun _ => 1) ⟨[2, 3], fun _ => 0⟩,
        .data cube (some cubePoints), .query (fun _ => 2) (point 3)]).interpolate env.sp env.m env.junk
      (point 3)).2 =
    (((AnyInterp.highPerf (HighPerf.fresh [2, 2, 2])).after env.sp env.m
      [.data cube (some cubePoints), .data cube (some cubePoints)]).interpolate env.sp env.m env.junk
      (point 3)).2 :=
  C92_independent_partial env (I := .highPerf (HighPerf.fresh [2, 2, 2])) rfl
    [.data cube (some cubePoints), .query (fun _ => 1) ⟨[2, 3], fun _ => 0⟩,
      .data cube (some cubePoints), .query (fun _ => 2) (point 3)] rfl
    (fun _ junk q h => by
      simp only [List.mem_cons, List.not_mem_nil, or_false, reduceCtorEq, false_or, Use.query.injEq] at h
      rcases h with ⟨-, rfl⟩ | ⟨-, rfl⟩ <;> rfl)

end Verif
