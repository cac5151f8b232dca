import Verif.Lemmas.Joining

/-!
# The interpolators answer rows independently
-/

set_option linter.unusedSectionVars false

namespace Verif

theorem pyMap_accepts {α β : Type*} {f : α → Py β} {l : List α} (h : ∀ a ∈ l, ∃ b, f a = .ok b) :
    ∃ bs, pyMap f l = .ok bs := by
  induction l with
  | nil => exact ⟨[], rfl⟩
  | cons a l ih =>
    obtain ⟨b, hb⟩ := h a (by simp)
    obtain ⟨bs, hbs⟩ := ih fun x hx => h x (by simp [hx])
    exact ⟨b :: bs, by simp [pyMap, hb, hbs, bind, Except.bind, pure, Except.pure]⟩

section
variable {K F : Type} [Zero K] [One K] [Add K] [Sub K] [Mul K] [Div K] [NatCast K] [IntCast K]
  [Min K] [Max K] [NumLits K] [DecidableEq K] {d : ℕ}

theorem assignCol_accepts {a : NDArray K} {R c : ℕ} (h : a.shape = [R, d]) (hc : c < d) (f : ℕ → K) :
    ∃ A, assignCol a c f = .ok A ∧ A.shape = [R, d] :=
  ⟨setCol a c f, by simp [assignCol, h, hc], h⟩

theorem scatter_joining {sp : SciPy K} (hsp : sp.Joining) (junk : List ℕ → K) (s : ScatterState K) :
    Joining 2 (s.interpolate sp junk) := by
  intro R q hR h3 hq ha
  obtain ⟨R1, q1, A1, c1, c3, c2⟩ := ha.some hR
  cases hi : s.interp with
  | none => simp [ScatterState.interpolate, hi] at c2
  | some x =>
    obtain ⟨p, v0, v1⟩ := x
    obtain ⟨f0, e0⟩ := hsp.scatter s.method p v0 2 R q hR h3 hq (ha.imp fun R' q' A hq' _ hA => by
      unfold ScatterState.interpolate at hA
      simp only [hi] at hA
      cases h0 : sp.scatterCall s.method p v0 q' with
      | error e => rw [h0] at hA; cases hA
      | ok f => exact ⟨f, rfl⟩)
    obtain ⟨f1, e1⟩ := hsp.scatter s.method p v1 2 R q hR h3 hq (ha.imp fun R' q' A hq' _ hA => by
      unfold ScatterState.interpolate at hA
      simp only [hi] at hA
      cases h0 : sp.scatterCall s.method p v0 q' with
      | error e => rw [h0] at hA; cases hA
      | ok f =>
        simp only [h0] at hA
        cases h1 : sp.scatterCall s.method p v1 q' with
        | error e => rw [h1] at hA; cases hA
        | ok f => exact ⟨f, rfl⟩)
    obtain ⟨o0, g1, g2⟩ := assignCol_accepts (a := emptyLike junk q) (c := 0) hq (by omega) f0
    obtain ⟨o1, g3, g4⟩ := assignCol_accepts (c := 1) g2 (by omega) f1
    have n1 : ¬ (s.method ≠ .cubic ∧ q.shape.headD 0 = 3) := by rw [hq]; simp [h3]
    refine ⟨o1, ?_⟩
    unfold ScatterState.interpolate
    simp only [hi, e0, e1, g1, g3, n1, if_false]

theorem gridCol_answered {sp : SciPy K} {me : GridMethod} {o : Option (List (K × K × ℕ) × NDArray K)}
    {q a A : NDArray K} {c : ℕ} (h : gridCol sp me o q a c = .ok A) :
    ∃ axes v f, o = some (axes, v) ∧ sp.gridCall me axes v q = .ok f ∧ assignCol a c f = .ok A := by
  unfold gridCol at h
  rcases o with _ | ⟨axes, v⟩
  · cases h
  · simp only at h
    cases h0 : sp.gridCall me axes v q with
    | error e => rw [h0] at h; cases h
    | ok f => rw [h0] at h; exact ⟨axes, v, f, rfl, h0, h⟩

theorem assignCol_lt {a A : NDArray K} {R c : ℕ} {f : ℕ → K} (ha : a.shape = [R, d])
    (h : assignCol a c f = .ok A) : c < d ∧ A.shape = [R, d] := by
  unfold assignCol at h
  rw [ha] at h
  simp only at h
  split at h
  · cases h
    rename_i hc
    exact ⟨hc, ha⟩
  · cases h

/-- What the successful queries of a grid interpolator have in common. -/
theorem grid_answered {sp : SciPy K} {junk : List ℕ → K} {s : GridState K} {R : ℕ} {q A : NDArray K}
    (hq : q.shape = [R, d]) (h : s.interpolate sp junk q = .ok A) :
    ∃ ax vx ay vy nd fx fy, s.ix = some (ax, vx) ∧ s.iy = some (ay, vy) ∧ s.ndim = some nd ∧
      sp.gridCall s.method ax vx q = .ok fx ∧ sp.gridCall s.method ay vy q = .ok fy ∧ 1 < d ∧
      (nd = 3 → ∃ az vz fz, s.iz = some (az, vz) ∧ sp.gridCall s.method az vz q = .ok fz ∧ 2 < d) := by
  unfold GridState.interpolate at h
  cases hx : s.ix with
  | none => rw [hx] at h; cases h
  | some x =>
    simp only [hx] at h
    cases h0 : gridCol sp s.method (some x) q (emptyLike junk q) 0 with
    | error e => rw [h0] at h; cases h
    | ok o0 =>
      simp only [h0] at h
      cases h1 : gridCol sp s.method s.iy q o0 1 with
      | error e => rw [h1] at h; cases h
      | ok o1 =>
        simp only [h1] at h
        cases hn : s.ndim with
        | none => rw [hn] at h; cases h
        | some nd =>
          simp only [hn] at h
          obtain ⟨ax, vx, fx, a1, a2, a3⟩ := gridCol_answered h0
          obtain ⟨ay, vy, fy, b1, b2, b3⟩ := gridCol_answered h1
          obtain ⟨-, k2⟩ := assignCol_lt (a := emptyLike junk q) hq a3
          obtain ⟨l1, l2⟩ := assignCol_lt k2 b3
          refine ⟨ax, vx, ay, vy, nd, fx, fy, a1, b1, rfl, a2, b2, l1, fun h3 => ?_⟩
          rw [if_pos h3] at h
          obtain ⟨az, vz, fz, c1, c2, c3⟩ := gridCol_answered h
          exact ⟨az, vz, fz, c1, c2, (assignCol_lt l2 c3).1⟩

theorem grid_joining {sp : SciPy K} (hsp : sp.Joining) (junk : List ℕ → K) (s : GridState K) :
    Joining d (s.interpolate sp junk) := by
  intro R q hR h3 hq ha
  obtain ⟨R1, q1, A1, c1, -, c2⟩ := ha.some hR
  obtain ⟨ax, vx, ay, vy, nd, -, -, hx, hy, hn, -, -, hd, hz⟩ := grid_answered c1 c2
  obtain ⟨fx, ex⟩ := hsp.grid s.method ax vx d R q hR h3 hq (ha.imp fun R' q' A hq' _ hA => by
    obtain ⟨ax', vx', ay', vy', nd', fx, fy, hx', hy', hn', h1, h2, -, -⟩ := grid_answered hq' hA
    rw [hx] at hx'
    cases hx'
    exact ⟨fx, h1⟩)
  obtain ⟨fy, ey⟩ := hsp.grid s.method ay vy d R q hR h3 hq (ha.imp fun R' q' A hq' _ hA => by
    obtain ⟨ax', vx', ay', vy', nd', fx, fy, hx', hy', hn', h1, h2, -, -⟩ := grid_answered hq' hA
    rw [hy] at hy'
    cases hy'
    exact ⟨fy, h2⟩)
  obtain ⟨o0, g1, g2⟩ := assignCol_accepts (a := emptyLike junk q) (c := 0) hq (by omega) fx
  obtain ⟨o1, g3, g4⟩ := assignCol_accepts (c := 1) g2 hd fy
  by_cases h3' : nd = 3
  · obtain ⟨az, vz, -, hz1, -, hz3⟩ := hz h3'
    obtain ⟨fz, ez⟩ := hsp.grid s.method az vz d R q hR h3 hq (ha.imp fun R' q' A hq' _ hA => by
      obtain ⟨ax', vx', ay', vy', nd', fx, fy, hx', hy', hn', h1, h2, -, hz'⟩ := grid_answered hq' hA
      rw [hn] at hn'
      cases hn'
      obtain ⟨az', vz', fz, y1, y2, -⟩ := hz' h3'
      rw [hz1] at y1
      cases y1
      exact ⟨fz, y2⟩)
    obtain ⟨o2, g5, g6⟩ := assignCol_accepts (c := 2) g4 hz3 fz
    exact ⟨o2, by simp [GridState.interpolate, gridCol, hx, hy, hz1, hn, h3', ex, ey, ez, g1, g3, g5]⟩
  · exact ⟨o1, by simp [GridState.interpolate, gridCol, hx, hy, hn, h3', ex, ey, g1, g3]⟩

/-- Calls of the compiled interpolators. -/
theorem call_joining (m : CMachine K) (it : Interp K) {R : ℕ} {q : NDArray K} (hR : 0 < R)
    (ha : Answered d R (fun q => it.call m (q.shape.headD 0) d (fun r c => q.get [r, c])
      (some (q.shape.headD 0))) q) :
    ∃ l, it.call m R d (fun r c => q.get [r, c]) (some R) = .ok l := by
  have key : ∀ f : List (Option K) → Py K,
      (∀ r < R, ∃ b, f (it.axes.zipIdx.map fun (x : Axis K × ℕ) => x.1.index (q.get [r, x.2])) = .ok b) →
      ∃ l, pyMap f ((List.range R).map fun r => it.axes.zipIdx.map
          fun (x : Axis K × ℕ) => x.1.index (q.get [r, x.2])) = .ok l := by
    intro f hf
    rw [pyMap_map]
    exact pyMap_accepts fun r hr => hf r (List.mem_range.1 hr)
  have hpts : ∀ {R' r r' : ℕ} {q' : NDArray K}, ¬ d < it.axes.length → rowOf q d r = rowOf q' d r' →
      (it.axes.zipIdx.map fun (x : Axis K × ℕ) => x.1.index (q.get [r, x.2])) =
        it.axes.zipIdx.map fun (x : Axis K × ℕ) => x.1.index (q'.get [r', x.2]) := by
    intro R' r r' q' hc hrow
    apply List.map_congr_left
    intro x hx
    have hlt : x.2 < d := by
      have := List.snd_lt_of_mem_zipIdx hx
      omega
    have := congrFun hrow ⟨x.2, hlt⟩
    simp only [rowOf] at this
    rw [this]
  have each : ∀ f : List (Option K) → Py K, ¬ d < it.axes.length →
      (∀ (R' : ℕ) (q' : NDArray K) a, it.call m R' d (fun r c => q'.get [r, c]) (some R') = .ok a →
        pyMap f ((List.range R').map fun r => it.axes.zipIdx.map
          fun (x : Axis K × ℕ) => x.1.index (q'.get [r, x.2])) = .ok a) →
      ∃ l, pyMap f ((List.range R).map fun r => it.axes.zipIdx.map
          fun (x : Axis K × ℕ) => x.1.index (q.get [r, x.2])) = .ok l := by
    intro f hc hf
    refine key f fun r hr => ?_
    obtain ⟨R', q', a', r', h1, -, h2, h3, h4⟩ := ha r hr
    simp only [h1, List.headD_cons] at h4
    have h5 := hf R' q' a' h4
    rw [pyMap_map] at h5
    obtain ⟨b, -, hb⟩ := pyMap_ok_get h5 r' (by simpa using h2)
    simp only [List.getElem_range] at hb
    exact ⟨b, by rw [hpts (R' := R') hc h3]; exact hb⟩
  obtain ⟨R1, q1, a1, s1, -, e1⟩ := ha.some hR
  simp only [s1, List.headD_cons] at e1
  by_cases hc : d < it.axes.length
  · simp [Interp.call, hc] at e1
  suffices H : (∃ f : List (Option K) → Py K, ∀ (R' : ℕ) (q' : NDArray K),
      it.call m R' d (fun r c => q'.get [r, c]) (some R') =
        pyMap f ((List.range R').map fun r => it.axes.zipIdx.map
          fun (x : Axis K × ℕ) => x.1.index (q'.get [r, x.2]))) ∨
      ∃ e, ∀ (R' : ℕ) (q' : NDArray K), it.call m R' d (fun r c => q'.get [r, c]) (some R') = .error e by
    rcases H with ⟨f, hf⟩ | ⟨e, he⟩
    · obtain ⟨l, hl⟩ := each f hc fun R' q' a h => by rw [← hf]; exact h
      exact ⟨l, by rw [hf]; exact hl⟩
    · rw [he] at e1
      cases e1
  by_cases hl : it.axes.length = 2
  · have hc2 : ¬ d < 2 := by rw [← hl]; exact hc
    simp only [Interp.call, hl, hc2, if_false, interp2dVec]
    rcases hv : it.v.shape with _ | ⟨a, _ | ⟨b, _ | ⟨c, t⟩⟩⟩
    · exact .inr ⟨_, fun _ _ => rfl⟩
    · exact .inr ⟨_, fun _ _ => rfl⟩
    · by_cases hd : d = 2
      · simp only [hd, ne_eq, not_true_eq_false, if_false, List.length_map, List.length_range]
        exact .inl ⟨_, fun _ _ => rfl⟩
      · simp only [ne_eq, hd, not_false_eq_true, if_true]
        exact .inr ⟨_, fun _ _ => rfl⟩
    · exact .inr ⟨_, fun _ _ => rfl⟩
  · have hcall : ∀ (R' : ℕ) (q' : NDArray K), it.call m R' d (fun r c => q'.get [r, c]) (some R') =
        interp3dVec m it.v d ((List.range R').map fun r => it.axes.zipIdx.map
          fun (x : Axis K × ℕ) => x.1.index (q'.get [r, x.2])) (some R') := by
      intro R' q'
      simp only [Interp.call, hc, if_false]
      repeat' split
      all_goals first | rfl | (rename_i e; exact absurd e hl)
    simp only [hcall, interp3dVec]
    rcases hv : it.v.shape with _ | ⟨a, _ | ⟨b, _ | ⟨c, _ | ⟨e, t⟩⟩⟩⟩
    · exact .inr ⟨_, fun _ _ => rfl⟩
    · exact .inr ⟨_, fun _ _ => rfl⟩
    · exact .inr ⟨_, fun _ _ => rfl⟩
    · by_cases hd : d = 3
      · simp only [hd, ne_eq, not_true_eq_false, if_false, List.length_map, List.length_range]
        exact .inl ⟨_, fun _ _ => rfl⟩
      · simp only [ne_eq, hd, not_false_eq_true, if_true]
        exact .inr ⟨_, fun _ _ => rfl⟩
    · exact .inr ⟨_, fun _ _ => rfl⟩

theorem highPerf_joining (m : CMachine K) (junk : List ℕ → K) {s : HighPerf K} (hu : s.uLen = none)
    (hd : d = 2 ∨ d = 3) : Joining d (fun q => (s.interpolate m junk q).2) := by
  intro R q hR h3 hq ha
  obtain ⟨R1, q1, A1, c1, -, c2⟩ := ha.some hR
  obtain ⟨-, -, x1, y1, z1, -⟩ := ensureBuffers_fields s R d
  obtain ⟨u1, w1⟩ := unused_buffers hu R d
  have F : ∀ R', (s.ensureBuffers R' d).ix = s.ix ∧ (s.ensureBuffers R' d).iy = s.iy ∧
      (s.ensureBuffers R' d).iz = s.iz ∧ (s.ensureBuffers R' d).uLen = some R' ∧
      (d = 3 → (s.ensureBuffers R' d).wLen = some R') := fun R' => by
    obtain ⟨-, -, x1, y1, z1, -⟩ := ensureBuffers_fields s R' d
    obtain ⟨u1, w1⟩ := unused_buffers hu R' d
    exact ⟨x1, y1, z1, u1, w1⟩
  rcases hd with rfl | rfl
  · have A : ∀ R' q' a, q'.shape = [R', 2] → (s.interpolate m junk q').2 = .ok a →
        ∃ x y l0 l1, s.ix = some x ∧ s.iy = some y ∧
          x.call m R' 2 (fun r c => q'.get [r, c]) (some R') = .ok l0 ∧
          y.call m R' 2 (fun r c => q'.get [r, c]) (some R') = .ok l1 := by
      intro R' q' a hq' hA
      obtain ⟨x2, y2, -, u2, -⟩ := F R'
      simp only [HighPerf.interpolate, hq', if_true, x2, y2, u2] at hA
      cases hx : s.ix with
      | none => simp [hx] at hA
      | some x =>
        cases hy : s.iy with
        | none => simp [hx, hy] at hA
        | some y =>
          simp only [hx, hy] at hA
          cases hcx : x.call m R' 2 (fun r c => q'.get [r, c]) (some R') with
          | error e => simp [hcx] at hA
          | ok l0 =>
            cases hcy : y.call m R' 2 (fun r c => q'.get [r, c]) (some R') with
            | error e => simp [hcx, hcy] at hA
            | ok l1 => exact ⟨x, y, l0, l1, rfl, rfl, hcx, hcy⟩
    obtain ⟨x, y, -, -, hx, hy, -, -⟩ := A R1 q1 A1 c1 c2
    obtain ⟨l0, e0⟩ := call_joining m x hR (ha.imp fun R' q' a hq' _ hA => by
      obtain ⟨x', y', l0, l1, hx', -, h1, -⟩ := A R' q' a hq' hA
      rw [hx] at hx'
      cases hx'
      exact ⟨l0, by simpa [hq'] using h1⟩)
    obtain ⟨l1, e1⟩ := call_joining m y hR (ha.imp fun R' q' a hq' _ hA => by
      obtain ⟨x', y', l0, l1, -, hy', -, h1⟩ := A R' q' a hq' hA
      rw [hy] at hy'
      cases hy'
      exact ⟨l1, by simpa [hq'] using h1⟩)
    exact ⟨_, by simp only [HighPerf.interpolate, hq, if_true, x1, y1, u1, hx, hy, e0, e1]; rfl⟩
  · have A : ∀ R' q' a, q'.shape = [R', 3] → (s.interpolate m junk q').2 = .ok a →
        ∃ x y z l0 l1 l2, s.ix = some x ∧ s.iy = some y ∧ s.iz = some z ∧
          x.call m R' 3 (fun r c => q'.get [r, c]) (some R') = .ok l0 ∧
          y.call m R' 3 (fun r c => q'.get [r, c]) (some R') = .ok l1 ∧
          z.call m R' 3 (fun r c => q'.get [r, c]) (some R') = .ok l2 := by
      intro R' q' a hq' hA
      obtain ⟨x2, y2, z2, u2, w2⟩ := F R'
      simp only [HighPerf.interpolate, hq', (by decide : ¬ (3 : ℕ) = 2), if_false, if_true, x2, y2, z2,
        u2, w2 rfl] at hA
      cases hx : s.ix with
      | none => simp [hx] at hA
      | some x =>
        cases hy : s.iy with
        | none => simp [hx, hy] at hA
        | some y =>
          cases hz : s.iz with
          | none => simp [hx, hy, hz] at hA
          | some z =>
            simp only [hx, hy, hz] at hA
            cases hcx : x.call m R' 3 (fun r c => q'.get [r, c]) (some R') with
            | error e => simp [hcx] at hA
            | ok l0 =>
              cases hcy : y.call m R' 3 (fun r c => q'.get [r, c]) (some R') with
              | error e => simp [hcx, hcy] at hA
              | ok l1 =>
                cases hcz : z.call m R' 3 (fun r c => q'.get [r, c]) (some R') with
                | error e => simp [hcx, hcy, hcz] at hA
                | ok l2 => exact ⟨x, y, z, l0, l1, l2, rfl, rfl, rfl, hcx, hcy, hcz⟩
    obtain ⟨x, y, z, -, -, -, hx, hy, hz, -, -, -⟩ := A R1 q1 A1 c1 c2
    obtain ⟨l0, e0⟩ := call_joining m x hR (ha.imp fun R' q' a hq' _ hA => by
      obtain ⟨x', y', z', l0, l1, l2, hx', hy', hz', h1, h2, h3⟩ := A R' q' a hq' hA
      rw [hx] at hx'
      cases hx'
      exact ⟨l0, by simpa [hq'] using h1⟩)
    obtain ⟨l1, e1⟩ := call_joining m y hR (ha.imp fun R' q' a hq' _ hA => by
      obtain ⟨x', y', z', l0, l1, l2, hx', hy', hz', h1, h2, h3⟩ := A R' q' a hq' hA
      rw [hy] at hy'
      cases hy'
      exact ⟨l1, by simpa [hq'] using h2⟩)
    obtain ⟨l2, e2⟩ := call_joining m z hR (ha.imp fun R' q' a hq' _ hA => by
      obtain ⟨x', y', z', l0, l1, l2, hx', hy', hz', h1, h2, h3⟩ := A R' q' a hq' hA
      rw [hz] at hz'
      cases hz'
      exact ⟨l2, by simpa [hq'] using h3⟩)
    exact ⟨_, by
      simp only [HighPerf.interpolate, hq, (by decide : ¬ (3 : ℕ) = 2), if_false, if_true, x1, y1, z1,
        u1, w1 rfl, hx, hy, hz, e0, e1, e2]; rfl⟩

/-- A user velocity function fails or not point by point. -/
def AnyInterp.Joins (d : ℕ) : AnyInterp K → Prop
  | .analytical s => ∀ f, s.fn = some f → Joining d (f s.time)
  | _ => True

/-- After any number of updates. -/
theorem updated_joining {env : Env K F} (hsp : env.sp.Joining) {src : Source K} {I0 : AnyInterp K}
    (hI : I0.Independent d) (hJ : I0.Joins d) (n : ℕ) :
    Joining d ((src.updated env I0 n).1.velocity env) := by
  have up : ∀ (I : AnyInterp K) v c, I.Joins d ∧
      (∀ s, I = .highPerf s → (d = 2 ∨ d = 3) ∧ s.uLen = none) ∧ (∀ s, I = .scatter s → d = 2) →
      (I.update env.sp v c).1.Joins d ∧
      (∀ s, (I.update env.sp v c).1 = .highPerf s → (d = 2 ∨ d = 3) ∧ s.uLen = none) ∧
      (∀ s, (I.update env.sp v c).1 = .scatter s → d = 2) := by
    rintro I v c ⟨h1, h2, h3⟩
    cases I with
    | scatter s =>
      exact ⟨trivial, fun _ h => by simp [AnyInterp.update] at h, fun _ _ => h3 s rfl⟩
    | highPerf s =>
      obtain ⟨a, b⟩ := h2 s rfl
      refine ⟨trivial, fun s' h => ⟨a, ?_⟩, fun _ h => by simp [AnyInterp.update] at h⟩
      simp only [AnyInterp.update, AnyInterp.highPerf.injEq] at h
      rw [← h]
      exact (highPerf_update_config s v c).2.1.trans b
    | grid s =>
      exact ⟨trivial, fun _ h => by simp [AnyInterp.update] at h,
        fun _ h => by simp [AnyInterp.update] at h⟩
    | analytical s => exact ⟨h1, h2, h3⟩
  have H : ((src.updated env I0 n).1.Joins d) ∧
      (∀ s, (src.updated env I0 n).1 = .highPerf s → (d = 2 ∨ d = 3) ∧ s.uLen = none) ∧
      (∀ s, (src.updated env I0 n).1 = .scatter s → d = 2) := by
    induction n with
    | zero =>
      exact ⟨hJ, fun s h => by simp only [Source.updated] at h; rw [h] at hI; exact hI,
        fun s h => by simp only [Source.updated] at h; rw [h] at hI; exact hI⟩
    | succ n ih =>
      simp only [Source.updated]
      rcases hu : src.updated env I0 n with ⟨J, _ | e⟩
      · rw [hu] at ih
        cases src with
        | analytical s => exact ih
        | file s =>
          simp only [Source.updateInterp]
          split
          · exact ih
          · exact up J _ _ ih
      · rw [hu] at ih
        exact ih
  generalize (src.updated env I0 n).1 = J at H
  obtain ⟨h1, h2, h3⟩ := H
  cases J with
  | scatter s =>
    obtain rfl := h3 s rfl
    exact scatter_joining hsp env.junk s
  | highPerf s => exact highPerf_joining env.m env.junk (h2 s rfl).2 (h2 s rfl).1
  | grid s => exact grid_joining hsp env.junk s
  | analytical s =>
    intro R q hR hR3 hq ha
    cases hf : s.fn with
    | none =>
      obtain ⟨R', q', a', -, -, c⟩ := ha.some hR
      simp [AnyInterp.velocity, AnyInterp.interpolate, AnalyticalState.interpolate, hf] at c
    | some f =>
      have := h1 f hf R q hR hR3 hq (ha.imp fun R' q' a hq' _ hA => by
        simp only [AnyInterp.velocity, AnyInterp.interpolate, AnalyticalState.interpolate, hf] at hA
        exact ⟨a, hA⟩)
      simpa [AnyInterp.velocity, AnyInterp.interpolate, AnalyticalState.interpolate, hf] using this

end

end Verif
