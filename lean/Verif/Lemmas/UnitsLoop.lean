import Verif.Lemmas.UnitsRun

/-!
# Helper lemmas: files, particles, Jacobians and the loop in different units
-/

set_option linter.unusedSectionVars false

namespace Verif

variable {K F : Type} [Field K] [LinearOrder K] [IsStrictOrderedRing K]

namespace Units
variable {U : Units K}

/-! ## Files -/

theorem vel_scaled (A : NDArray K) : Scaled U.c A (U.vel A) := ⟨rfl, fun _ _ => rfl⟩

theorem points_moved (A : NDArray K) : U.Moved A (U.points A) := ⟨rfl, fun _ _ => rfl⟩

theorem coord_moved (j : ℕ) (A : NDArray K) :
    A.RelBy (fun _ x y => y = U.a * x + U.b j) (U.coord j A) := ⟨rfl, fun _ _ => rfl⟩

/-- Stacking two or three arrays. -/
theorem stack_rel {R : ℕ → K → K → Prop} {a a' : NDArray K} {l l' : List (NDArray K)}
    (h : ∀ (j : ℕ) (x x' : NDArray K), (a :: l)[j]? = some x → (a' :: l')[j]? = some x' →
      x.RelBy (fun _ => R j) x') (hl : l.length = l'.length) :
    Py.Rel (NDArray.RelBy fun idx => R (idx.getD 0 0)) (NDArray.stack a l) (NDArray.stack a' l') := by
  have h0 := h 0 a a' rfl rfl
  have hiff : (∀ b ∈ l, b.shape = a.shape) ↔ ∀ b ∈ l', b.shape = a'.shape := by
    constructor
    · intro hs b hb
      obtain ⟨k, hk, rfl⟩ := List.mem_iff_getElem.1 hb
      have := h (k + 1) (l[k]'(by omega)) l'[k] (by simp) (by simp)
      rw [← this.1, ← h0.1]
      exact hs _ (List.getElem_mem _)
    · intro hs b hb
      obtain ⟨k, hk, rfl⟩ := List.mem_iff_getElem.1 hb
      have := h (k + 1) l[k] (l'[k]'(by omega)) (by simp) (by simp)
      rw [this.1, h0.1]
      exact hs _ (List.getElem_mem _)
  unfold NDArray.stack
  by_cases hs : ∀ b ∈ l, b.shape = a.shape
  · rw [if_pos hs, if_pos (hiff.1 hs)]
    refine .ok ⟨by simp only; rw [hl, h0.1], fun idx hi => ?_⟩
    cases hi with
    | cons hj hi =>
      rename_i j is
      simp only [List.getD_cons_zero]
      have e1 : (a :: l)[j]? = some ((a :: l).getD j a) := by
        rw [List.getD_eq_getElem?_getD, List.getElem?_eq_getElem (by simpa using hj)]
        rfl
      have e2 : (a' :: l')[j]? = some ((a' :: l').getD j a') := by
        rw [List.getD_eq_getElem?_getD, List.getElem?_eq_getElem (by simpa [← hl] using hj)]
        rfl
      refine (h j _ _ e1 e2).2 is ?_
      have : ((a :: l).getD j a).shape = a.shape := by
        have hm : (a :: l).getD j a ∈ a :: l := List.mem_of_getElem? e1
        rcases List.mem_cons.1 hm with hm | hm
        · rw [hm]
        · exact hs _ hm
      rw [this]
      exact hi
  · rw [if_neg hs, if_neg fun h => hs (hiff.2 h)]
    exact .error _

theorem readComponents {R : ℕ → K → K → Prop} {f f' : MatFile K} {kx ky kz : String}
    (h0 : OptRel (NDArray.RelBy fun _ => R 0) (f kx) (f' kx))
    (h1 : OptRel (NDArray.RelBy fun _ => R 1) (f ky) (f' ky))
    (h2 : OptRel (NDArray.RelBy fun _ => R 2) (f kz) (f' kz)) :
    Py.Rel (NDArray.RelBy fun idx => R (idx.getD 0 0)) (Verif.readComponents f kx ky kz)
      (Verif.readComponents f' kx ky kz) := by
  unfold Verif.readComponents
  rcases h0.cases with ⟨e1, e2⟩ | ⟨x, x', e1, e2, hx⟩ <;> rw [e1, e2]
  · exact .error _
  rcases h1.cases with ⟨e1, e2⟩ | ⟨y, y', e1, e2, hy⟩ <;> rw [e1, e2]
  · exact .error _
  simp only
  rcases h2.cases with ⟨e1, e2⟩ | ⟨z, z', e1, e2, hz⟩ <;> rw [e1, e2]
  · refine stack_rel (fun j u u' hu hu' => ?_) rfl
    rcases j with _ | _ | j
    · cases hu; cases hu'; exact RelBy.ravelC hx
    · cases hu; cases hu'; exact RelBy.ravelC hy
    · simp at hu
  · refine stack_rel (fun j u u' hu hu' => ?_) rfl
    rcases j with _ | _ | _ | j
    · cases hu; cases hu'; exact RelBy.ravelC hx
    · cases hu; cases hu'; exact RelBy.ravelC hy
    · cases hu; cases hu'; exact RelBy.ravelC hz
    · simp at hu

theorem optRel_map {α β : Type*} {R : α → β → Prop} {g : α → β} (hg : ∀ a, R a (g a)) (o : Option α) :
    OptRel R o (o.map g) := by
  cases o with
  | none => trivial
  | some a => exact hg a

theorem readVelocity (fs : MatFS K) (path : String) :
    Py.Rel (Scaled U.c) (Verif.readVelocity fs path) (Verif.readVelocity (U.files fs) path) := by
  unfold Verif.readVelocity Verif.loadmat Units.files
  cases fs path with
  | none => exact .error _
  | some f =>
    refine readComponents (R := fun _ x y => y = U.c * x) ?_ ?_ ?_
    all_goals
      simp only [Units.file]
      exact optRel_map vel_scaled _

theorem readCoordinate (fs : MatFS K) (path : String) :
    Py.Rel U.Rows (Verif.readCoordinate fs path) (Verif.readCoordinate (U.files fs) path) := by
  unfold Verif.readCoordinate Verif.loadmat Units.files
  cases fs path with
  | none => exact .error _
  | some f =>
    refine readComponents (R := fun j x y => y = U.a * x + U.b j) ?_ ?_ ?_
    · exact optRel_map (coord_moved 0) _
    · exact optRel_map (coord_moved 1) _
    · exact optRel_map (coord_moved 2) _

theorem readCoordinate_shape {fs : MatFS K} {path : String} {p : NDArray K}
    (h : Verif.readCoordinate fs path = .ok p) : ∃ g N, p.shape = [g, N] := by
  unfold Verif.readCoordinate at h
  split at h
  · cases h
  · unfold Verif.readComponents at h
    repeat' split at h
    all_goals first
      | cases h
      | (unfold NDArray.stack at h
         split at h
         · cases h; exact ⟨_, _, rfl⟩
         · cases h)

/-! ## Particles -/

theorem append0 {a a' b b' : NDArray K} (ha : U.Moved a a') (hb : U.Moved b b') :
    Py.Rel U.Moved (a.append0 b) (a'.append0 b') := by
  unfold NDArray.append0
  rw [← ha.1, ← hb.1]
  cases hsa : a.shape with
  | nil => exact .error _
  | cons n ra =>
    cases hsb : b.shape with
    | nil => exact .error _
    | cons m rb =>
      simp only
      split
      · rename_i hr
        refine .ok ⟨rfl, fun idx hi => ?_⟩
        cases hi with
        | cons hr' hi =>
          rename_i r is
          simp only
          split
          · rename_i hlt
            refine ha.2 (r :: is) ?_
            rw [hsa]
            exact .cons hlt hi
          · have := hb.2 ((r - n) :: is) (by rw [hsb, ← hr]; exact .cons (by omega) hi)
            simpa using this
      · exact .error _

theorem concat0 : ∀ {l l' : List (NDArray K)}, List.Forall₂ U.Moved l l' →
    Py.Rel U.Moved (NDArray.concat0 l) (NDArray.concat0 l')
  | [], [], .nil => .error _
  | [a], [a'], .cons h .nil => by
    unfold NDArray.concat0
    rw [← h.1]
    cases a.shape with
    | nil => exact .error _
    | cons n r => exact .ok h
  | a :: b :: l, a' :: b' :: l', .cons h (.cons h' hl) => by
    unfold NDArray.concat0
    rcases (concat0 (.cons h' hl)).cases with ⟨e, e1, e2⟩ | ⟨t, t', e1, e2, ht⟩ <;> rw [e1, e2]
    · exact .error e
    · exact append0 h ht

variable (U) in
/-- Particle sets in the two systems. -/
structure ParticlesRel (p p' : Particles K) : Prop where
  positions : U.Moved p.positions p'.positions
  tb : Scaled U.a p.initialDeltaTB p'.initialDeltaTB
  rl : Scaled U.a p.initialDeltaRL p'.initialDeltaRL
  fb : Scaled U.a p.initialDeltaFB p'.initialDeltaFB
  centroid : U.Moved p.initialCentroid p'.initialCentroid
  nn : p'.numNeighbors = p.numNeighbors

theorem split {a b : NDArray K} (h : U.Moved a b) (k : ℕ) :
    Py.Rel (List.Forall₂ U.Moved) (a.split k) (b.split k) :=
  RelBy.split (fun _ _ _ _ _ h => h) h k

theorem sub {a a' b b' : NDArray K} (ha : U.Moved a a') (hb : U.Moved b b') :
    Py.Rel (Scaled U.a) (NDArray.zipWith (· - ·) a b) (NDArray.zipWith (· - ·) a' b') :=
  RelBy.zipWith (fun _ _ _ _ _ h1 h2 => by rw [h1, h2]; ring) ha hb

theorem deltaRL {a b : NDArray K} (h : U.Moved a b) (k : ℕ) :
    Py.Rel (Scaled U.a) (computeDeltaRL a k) (computeDeltaRL b k) := by
  unfold computeDeltaRL
  rcases (split h k).cases with ⟨e, e1, e2⟩ | ⟨l, l', e1, e2, hl⟩ <;> rw [e1, e2]
  · exact .error e
  · rcases hl with _ | ⟨h1, _ | ⟨h2, _⟩⟩
    · exact .error _
    · exact .error _
    · exact sub h2 h1

theorem deltaTB {a b : NDArray K} (h : U.Moved a b) (k : ℕ) :
    Py.Rel (Scaled U.a) (computeDeltaTB a k) (computeDeltaTB b k) := by
  unfold computeDeltaTB
  rcases (split h k).cases with ⟨e, e1, e2⟩ | ⟨l, l', e1, e2, hl⟩ <;> rw [e1, e2]
  · exact .error e
  · rcases hl with _ | ⟨h1, _ | ⟨h2, _ | ⟨h3, _ | ⟨h4, _⟩⟩⟩⟩
    · exact .error _
    · exact .error _
    · exact .error _
    · exact .error _
    · exact sub h3 h4

theorem deltaFB {a b : NDArray K} (h : U.Moved a b) (k : ℕ) :
    Py.Rel (Scaled U.a) (computeDeltaFB a k) (computeDeltaFB b k) := by
  unfold computeDeltaFB
  rcases (split h k).cases with ⟨e, e1, e2⟩ | ⟨l, l', e1, e2, hl⟩ <;> rw [e1, e2]
  · exact .error e
  · have hr := List.forall₂_reverse_iff.2 hl
    simp only
    rcases hr' : l.reverse with _ | ⟨x, _ | ⟨y, t⟩⟩ <;>
      rcases hr'' : l'.reverse with _ | ⟨x', _ | ⟨y', t'⟩⟩ <;> rw [hr', hr''] at hr
    all_goals first
      | exact .error _
      | (cases hr; done)
      | (rcases hr with _ | ⟨_, _ | _⟩; done)
      | (rcases hr with _ | ⟨h1, h2 | ⟨h2, _⟩⟩; exact sub h2 h1)

theorem sumParts : ∀ {l l' : List (NDArray K)} (k : ℕ) {p p' : NDArray K},
    List.Forall₂ U.Moved l l' →
    p.RelBy (fun idx x y => y = U.a * x + (k : K) * U.b (idx.getD 1 0)) p' →
    Py.Rel (NDArray.RelBy fun idx x y => y = U.a * x + ((k + l.length : ℕ) : K) * U.b (idx.getD 1 0))
      (Verif.sumParts p l) (Verif.sumParts p' l')
  | [], [], k, p, p', .nil, hp => .ok (by simpa using hp)
  | q :: l, q' :: l', k, p, p', .cons hq hl, hp => by
    unfold Verif.sumParts
    have hz : Py.Rel (NDArray.RelBy fun idx x y => y = U.a * x + ((k + 1 : ℕ) : K) * U.b (idx.getD 1 0))
        (NDArray.zipWith (· + ·) p q) (NDArray.zipWith (· + ·) p' q') :=
      RelBy.zipWith (fun _ _ _ _ _ h1 h2 => by rw [h1, h2]; push_cast; ring) hp hq
    rcases hz.cases with ⟨e, e1, e2⟩ | ⟨s, s', e1, e2, hs⟩ <;> rw [e1, e2]
    · exact .error e
    · have := sumParts (k + 1) hl hs
      rwa [show k + 1 + l.length = k + (q :: l).length by simp; omega] at this

theorem split_length {α : Type*} {a : NDArray α} {k : ℕ} {l : List (NDArray α)}
    (h : a.split k = .ok l) : l.length = k := by
  unfold NDArray.split at h
  repeat' split at h
  all_goals first
    | (cases h; done)
    | (cases h; simp)

theorem centroid {a b : NDArray K} (h : U.Moved a b) (k : ℕ) :
    Py.Rel U.Moved (computeCentroid a k) (computeCentroid b k) := by
  unfold computeCentroid
  rcases (split h k).cases with ⟨e, e1, e2⟩ | ⟨l, l', e1, e2, hl⟩ <;> rw [e1, e2]
  · exact .error e
  · have hk := split_length e1
    cases hl with
    | nil => exact .error _
    | cons hp hl =>
      rename_i p p' l l'
      simp only
      have := sumParts (U := U) (K := K) 1 hl (p := p) (p' := p')
        ⟨hp.1, fun idx hi => by rw [hp.2 idx hi]; push_cast; ring⟩
      have hk' : 1 + l.length = k := by simp at hk; omega
      rw [hk'] at this
      rcases this.cases with ⟨e, e1, e2⟩ | ⟨s, s', e1, e2, hs⟩ <;> rw [e1, e2]
      · exact .error e
      · refine .ok ⟨hs.1, fun idx hi => ?_⟩
        have hk0 : (k : K) ≠ 0 := by
          rw [← hk']
          exact Nat.cast_ne_zero.2 (by omega)
        simp only [NDArray.map]
        rw [hs.2 idx hi]
        field_simp

theorem mkParticles {a b : NDArray K} (h : U.Moved a b) :
    Py.Rel U.ParticlesRel (Verif.mkParticles a) (Verif.mkParticles b) := by
  unfold Verif.mkParticles
  rw [← h.1]
  cases hs : a.shape with
  | nil => exact .error _
  | cons n rest =>
    simp only
    split
    · exact .error _
    cases rest with
    | nil => exact .error _
    | cons d rest =>
      simp only
      rcases (deltaTB h (d * 2)).cases with ⟨e, e1, e2⟩ | ⟨tb, tb', e1, e2, h1⟩ <;> rw [e1, e2]
      · exact .error e
      simp only
      rcases (deltaRL h (d * 2)).cases with ⟨e, e1, e2⟩ | ⟨rl, rl', e1, e2, h2⟩ <;> rw [e1, e2]
      · exact .error e
      simp only
      have hfb : Py.Rel (Scaled U.a)
          (if d = 3 then computeDeltaFB a (d * 2) else .ok (emptyArray a))
          (if d = 3 then computeDeltaFB b (d * 2) else .ok (emptyArray b)) := by
        split
        · exact deltaFB h _
        · refine .ok ⟨rfl, fun idx hi => ?_⟩
          cases hi with
          | cons hr _ => omega
      rcases hfb.cases with ⟨e, e1, e2⟩ | ⟨fb, fb', e1, e2, h3⟩ <;> rw [e1, e2]
      · exact .error e
      simp only
      rcases (centroid h (d * 2)).cases with ⟨e, e1, e2⟩ | ⟨c, c', e1, e2, h4⟩ <;> rw [e1, e2]
      · exact .error e
      · exact .ok ⟨h, h1, h2, h3, h4, rfl⟩

theorem readSeedParticles (fs : MatFS K) (path : String) :
    Py.Rel U.ParticlesRel (Verif.readSeedParticles fs path)
      (Verif.readSeedParticles (U.files fs) path) := by
  unfold Verif.readSeedParticles Verif.loadmat Units.files
  cases fs path with
  | none => exact .error _
  | some f =>
    simp only [Option.map_some]
    have hk : ∀ key ∈ ["left", "right", "top", "bottom", "front", "back"],
        U.file f key = (f key).map U.points := by
      intro key hkey
      fin_cases hkey <;> rfl
    rw [hk "left" (by simp), hk "right" (by simp), hk "top" (by simp), hk "bottom" (by simp),
      hk "front" (by simp), hk "back" (by simp)]
    have hm := points_moved (U := U)
    cases f "left" with
    | none => exact .error _
    | some l =>
    cases f "right" with
    | none => exact .error _
    | some r =>
    cases f "top" with
    | none => exact .error _
    | some t =>
    cases f "bottom" with
    | none => exact .error _
    | some b =>
    simp only [Option.map_some]
    have h4 : Py.Rel U.Moved (NDArray.concat0 [l, r, t, b])
        (NDArray.concat0 [U.points l, U.points r, U.points t, U.points b]) :=
      concat0 (.cons (hm _) (.cons (hm _) (.cons (hm _) (.cons (hm _) .nil))))
    have fin : ∀ {x x' : Py (NDArray K)}, Py.Rel U.Moved x x' → Py.Rel U.ParticlesRel
        (match x with | .error e => .error e | .ok pos => Verif.mkParticles pos)
        (match x' with | .error e => .error e | .ok pos => Verif.mkParticles pos) := by
      intro x x' hx
      rcases hx.cases with ⟨e, e1, e2⟩ | ⟨p, p', e1, e2, hp⟩ <;> rw [e1, e2]
      · exact .error e
      · exact mkParticles hp
    cases f "front" with
    | none => exact fin h4
    | some fr =>
      cases f "back" with
      | none => exact fin h4
      | some bk =>
        refine fin ?_
        exact concat0 (.cons (hm _) (.cons (hm _) (.cons (hm _) (.cons (hm _) (.cons (hm _)
          (.cons (hm _) .nil))))))

/-! ## Jacobians -/

theorem read {c : K} {a b : NDArray K} (h : Scaled c a b) (idx : List ℕ) :
    Py.Rel (fun x y => y = c * x) (a.read idx) (b.read idx) := by
  unfold NDArray.read
  rw [← h.1]
  split
  · rename_i hv
    exact .ok (h.2 idx hv)
  · exact .error _

theorem jacEntry {d d' D D' : NDArray K} (h : Scaled U.a d d') (H : Scaled U.a D D') (i r c : ℕ) :
    Verif.jacEntry d' D' i r c = Verif.jacEntry d D i r c := by
  have ha := U.a_pos.ne'
  unfold Verif.jacEntry
  rcases (read h [i, r]).cases with ⟨e, e1, e2⟩ | ⟨x, x', e1, e2, hx⟩ <;> rw [e1, e2]
  simp only
  rcases (read H [i, c]).cases with ⟨e, e1, e2⟩ | ⟨y, y', e1, e2, hy⟩ <;> rw [e1, e2]
  simp only
  unfold pyDiv
  rw [hx, hy, mul_div_mul_left _ _ ha]
  by_cases h0 : y = 0
  · simp [h0]
  · simp [h0, ha]

theorem jacobian2 {p p' : Particles K} (h : U.ParticlesRel p p') :
    Verif.jacobian2 p' = Verif.jacobian2 p := by
  unfold Verif.jacobian2 Particles.deltaRL Particles.deltaTB
  rw [h.nn, ← h.positions.1]
  rcases (deltaRL h.positions p.numNeighbors).cases with ⟨e, e1, e2⟩ | ⟨a, a', e1, e2, ha⟩ <;>
    simp only [e1, e2]
  rcases (deltaTB h.positions p.numNeighbors).cases with ⟨e, e1, e2⟩ | ⟨b, b', e1, e2, hb⟩ <;>
    simp only [e1, e2]
  refine pyMap_congr fun i _ => ?_
  unfold jac2Body
  simp only [jacEntry ha h.rl, jacEntry hb h.tb]

theorem jacobian3 {p p' : Particles K} (h : U.ParticlesRel p p') :
    Verif.jacobian3 p' = Verif.jacobian3 p := by
  unfold Verif.jacobian3 Particles.deltaRL Particles.deltaTB Particles.deltaFB
  rw [h.nn, ← h.positions.1]
  rcases (deltaRL h.positions p.numNeighbors).cases with ⟨e, e1, e2⟩ | ⟨a, a', e1, e2, ha⟩ <;>
    simp only [e1, e2]
  rcases (deltaTB h.positions p.numNeighbors).cases with ⟨e, e1, e2⟩ | ⟨b, b', e1, e2, hb⟩ <;>
    simp only [e1, e2]
  rcases (deltaFB h.positions p.numNeighbors).cases with ⟨e, e1, e2⟩ | ⟨c, c', e1, e2, hc⟩ <;>
    simp only [e1, e2]
  refine pyMap_congr fun i _ => ?_
  unfold jac3Body
  simp only [jacEntry ha h.rl, jacEntry hb h.tb, jacEntry hc h.fb]

theorem computeFtle {φ : F → F} {env : Env K F} (hk : Kernels U.τ φ env) {fs' : MatFS K}
    {junk' : List ℕ → K} {p p' : Particles K} (h : U.ParticlesRel p p') (n : ℕ) (dt : K) :
    Py.Rel (fun l l' => l' = l.map φ) (Verif.computeFtle env p n dt)
      (Verif.computeFtle { env with fs := fs', junk := junk' } p' n (U.τ * dt)) := by
  have hT : ((((n : ℤ) - 1 : ℤ) : K) * env.abs (U.τ * dt)) =
      U.τ * ((((n : ℤ) - 1 : ℤ) : K) * env.abs dt) := by
    rw [hk.abs]; ring
  unfold Verif.computeFtle
  rw [jacobian2 h, jacobian3 h, h.nn]
  split
  · cases Verif.jacobian2 p with
    | error e => exact .error e
    | ok js =>
      simp only
      rw [hT]
      exact hk.ftle2 _ _
  · cases Verif.jacobian3 p with
    | error e => exact .error e
    | ok js =>
      simp only
      rw [hT]
      exact hk.ftle3 _ _

/-! ## The loop -/

/-- Sources in the two systems. -/
inductive SourceRel (U : Units K) : Source K → Source K → Prop
  | file (s : FileSource K) : SourceRel U (.file s) (.file { s with timestep := U.τ * s.timestep })
  | analytical {s s' : AnalyticalSource K} (hp : U.ParticlesRel s.particles s'.particles)
      (hdt : s'.timestep = U.τ * s.timestep) (ht : s'.times = s.times.map (U.τ * ·)) :
      SourceRel U (.analytical s) (.analytical s')

theorem SourceRel.timestep {S S' : Source K} (h : SourceRel U S S') :
    S'.timestep = U.τ * S.timestep := by
  cases h with
  | file s => rfl
  | analytical hp hdt ht => exact hdt

theorem SourceRel.numSteps {S S' : Source K} (h : SourceRel U S S') : S'.numSteps = S.numSteps := by
  cases h with
  | file s => rfl
  | analytical hp hdt ht => simp [Source.numSteps, ht]

theorem SourceRel.getParticles {S S' : Source K} (h : SourceRel U S S') (fs : MatFS K) :
    Py.Rel U.ParticlesRel (S.getParticles fs) (S'.getParticles (U.files fs)) := by
  cases h with
  | file s => exact readSeedParticles fs s.particleFile
  | analytical hp hdt ht => exact .ok hp

theorem rowsOk_none (I : AnyInterp K) : RowsOk I none := by
  cases I <;> first | trivial | (intro x h; cases h)

theorem dataForStep (fs : MatFS K) (s : FileSource K) (dt' : K) (i : ℕ) {I : AnyInterp K}
    (hI : CoordsOk fs (.file s) I) :
    Py.Rel (fun x y => Scaled U.c x.1 y.1 ∧ OptRel U.Rows x.2 y.2 ∧ RowsOk I x.2)
      (s.dataForStep fs i)
      (FileSource.dataForStep (U.files fs) { s with timestep := dt' } i) := by
  unfold FileSource.dataForStep
  cases s.snapshotFiles[i]? with
  | none => exact .error _
  | some vf =>
    cases hcf : s.coordinateFiles[i]? with
    | none => exact .error _
    | some cf =>
      simp only
      rcases (readVelocity (U := U) fs vf).cases with ⟨e, e1, e2⟩ | ⟨v, v', e1, e2, hv⟩ <;> rw [e1, e2]
      · exact .error e
      simp only
      split
      · rcases (readCoordinate (U := U) fs cf).cases with ⟨e, e1, e2⟩ | ⟨c, c', e1, e2, hc⟩ <;>
          rw [e1, e2]
        · exact .error e
        · exact .ok ⟨hv, hc, hI cf (List.mem_of_getElem? hcf) c e1⟩
      · exact .ok ⟨hv, trivial, rowsOk_none I⟩

/-- Loop states in the two systems. -/
structure LoopRel (U : Units K) (φ : F → F) (id id' : String) (sp : SciPy K) (fs : MatFS K) (src : Source K)
    (n d : ℕ) (k : Kind) (a b : Loop K F) : Prop where
  interp : InterpRel U a.interp b.interp
  sci : UsesSciPy a.interp → Equivariant U sp
  dims : Dims d a.interp
  coords : CoordsOk fs src a.interp
  integ : IntegRel U a.integ b.integ
  inv : a.integ.Inv k
  inv' : b.integ.Inv k
  particles : U.ParticlesRel a.particles b.particles
  shape : a.particles.positions.shape = [n, d]
  trace : List.Forall₂ (EventRel U φ id id') a.trace b.trace

theorem CoordsOk.update {fs : MatFS K} {src : Source K} {I : AnyInterp K} (h : CoordsOk fs src I)
    (sp : SciPy K) (v : NDArray K) (p : Option (NDArray K)) :
    CoordsOk fs src (I.update sp v p).1 := by
  cases src with
  | file s => exact fun path hp c hc => RowsOk.update sp v p _ (h path hp c hc)
  | analytical s => trivial

theorem CoordsOk.interpolate {fs : MatFS K} {src : Source K} {I : AnyInterp K}
    (h : CoordsOk fs src I) (sp : SciPy K) (m : CMachine K) (junk : List ℕ → K) (q : NDArray K) :
    CoordsOk fs src (I.interpolate sp m junk q).1 := by
  cases src with
  | file s => exact fun path hp c hc => RowsOk.interpolate sp m junk q _ (h path hp c hc)
  | analytical s => trivial

variable {φ : F → F} {id id' : String} {n d : ℕ} {k : Kind}

theorem updateInterp {env : Env K F} {junk' : List ℕ → K}
    {src src' : Source K} (hsrc : SourceRel U src src') {I I' : AnyInterp K}
    (hI : InterpRel U I I') (hsp : UsesSciPy I → Equivariant U env.sp) (hd : Dims d I)
    (hc : CoordsOk env.fs src I) (i : ℕ) :
    (src'.updateInterp { env with fs := U.files env.fs, junk := junk' } I' i).2 =
        (src.updateInterp env I i).2 ∧
      ((src.updateInterp env I i).2 = none →
        InterpRel U (src.updateInterp env I i).1
          (src'.updateInterp { env with fs := U.files env.fs, junk := junk' } I' i).1 ∧
        (UsesSciPy (src.updateInterp env I i).1 → Equivariant U env.sp) ∧
        Dims d (src.updateInterp env I i).1 ∧ CoordsOk env.fs src (src.updateInterp env I i).1) := by
  cases hsrc with
  | analytical hp hdt ht => exact ⟨rfl, fun _ => ⟨hI, hsp, hd, hc⟩⟩
  | file s =>
    simp only [Source.updateInterp]
    rcases (dataForStep (U := U) env.fs s (U.τ * s.timestep) i hc).cases with
      ⟨e, e1, e2⟩ | ⟨⟨v, p⟩, ⟨v', p'⟩, e1, e2, hv, hp, hr⟩ <;> rw [e1, e2]
    · exact ⟨rfl, fun h => by cases h⟩
    · have h := InterpRel.update hI hv hp hr hsp
      exact ⟨h.1, fun hn => ⟨h.2 hn, by rwa [usesSciPy_update], hd.update env.sp v p hn, hc.update env.sp v p⟩⟩

theorem LoopRel.step {env : Env K F} (junk' : List ℕ → K)
    {src src' : Source K} (hsrc : SourceRel U src src') (queue : Bool) (i : ℕ) {a b : Loop K F}
    (h : LoopRel U φ id id' env.sp env.fs src n d k a b) :
    (b.step { env with fs := U.files env.fs, junk := junk' } src' id' queue i).2 =
      (a.step env src id queue i).2 ∧
    List.Forall₂ (EventRel U φ id id') (a.step env src id queue i).1.trace
      (b.step { env with fs := U.files env.fs, junk := junk' } src' id' queue i).1.trace ∧
    ((a.step env src id queue i).2 = none →
      LoopRel U φ id id' env.sp env.fs src n d k (a.step env src id queue i).1
        (b.step { env with fs := U.files env.fs, junk := junk' } src' id' queue i).1) := by
  have ht := Loop.step_trace env src id queue i a
  have ht' := Loop.step_trace { env with fs := U.files env.fs, junk := junk' } src' id' queue i b
  have hu := updateInterp (junk' := junk') hsrc h.interp h.sci h.dims h.coords i
  have main : (b.step { env with fs := U.files env.fs, junk := junk' } src' id' queue i).2 =
        (a.step env src id queue i).2 ∧
      (List.Forall₂ (EventRel U φ id id') (a.step env src id queue i).1.trace
        (b.step { env with fs := U.files env.fs, junk := junk' } src' id' queue i).1.trace →
      (a.step env src id queue i).2 = none →
      LoopRel U φ id id' env.sp env.fs src n d k (a.step env src id queue i).1
        (b.step { env with fs := U.files env.fs, junk := junk' } src' id' queue i).1) := by
    clear ht ht'
    unfold Loop.step
    rcases hua : src.updateInterp env a.interp i with ⟨I, _ | e⟩ <;>
      rcases hub : src'.updateInterp { env with fs := U.files env.fs, junk := junk' } b.interp i
        with ⟨I', _ | e'⟩ <;> rw [hua, hub] at hu <;> simp only at hu ⊢
    · obtain ⟨hI, hsp, hd, hc⟩ := hu.2 trivial
      have hv : U.VelRel [n, d] (I.velocity env)
          (I'.velocity { env with fs := U.files env.fs, junk := junk' }) := fun q q' hq hs =>
        (hI.interpolate env.m env.junk junk' hsp hd hq hs).1
      have hstep := h.integ.step hv env.junk junk' hsrc.timestep h.inv h.inv'
        h.particles.positions h.shape
      have hst := (hI.interpolate env.m env.junk junk' hsp hd h.particles.positions h.shape).2
      simp only [integrate_eq]
      have i1 := step_inv k env.junk (I.velocity env) src.timestep a.particles.positions h.inv
      have i2 := step_inv k junk' (I'.velocity { env with fs := U.files env.fs, junk := junk' })
        src'.timestep b.particles.positions h.inv'
      rcases hstep.1.cases with ⟨e, e1, e2⟩ | ⟨q, q', e1, e2, hq⟩ <;> simp only [e1, e2]
      · exact ⟨trivial, fun _ hc => by cases hc⟩
      · refine ⟨trivial, fun htr _ => ⟨hst,
          by rwa [usesSciPy_interpolate], Dims.interpolate _ _ _ _ hd,
          CoordsOk.interpolate hc _ _ _ _, hstep.2 q e1, i1, i2,
          ⟨hq, h.particles.tb, h.particles.rl, h.particles.fb, h.particles.centroid,
            h.particles.nn⟩, ?_, htr⟩⟩
        have he : a.integ.step env.junk (I.velocity env) src.timestep a.particles.positions =
            ((a.integ.step env.junk (I.velocity env) src.timestep a.particles.positions).1,
              .ok q) := by rw [← e1]
        exact (step_shape he).trans h.shape
    · exact absurd hu.1 (by simp)
    · exact absurd hu.1 (by simp)
    · exact ⟨hu.1, fun _ hc => by cases hc⟩
  have m3 : List.Forall₂ (EventRel U φ id id') (a.step env src id queue i).1.trace
      (b.step { env with fs := U.files env.fs, junk := junk' } src' id' queue i).1.trace := by
    rw [ht, ht', main.1]
    refine List.rel_append h.trace ?_
    split
    · exact .cons (.progress i) .nil
    · exact .nil
  exact ⟨main.1, m3, main.2 m3⟩

theorem LoopRel.steps {env : Env K F} (junk' : List ℕ → K)
    {src src' : Source K} (hsrc : SourceRel U src src') (queue : Bool) :
    ∀ (l : List ℕ) {a b : Loop K F}, LoopRel U φ id id' env.sp env.fs src n d k a b →
    (Loop.steps { env with fs := U.files env.fs, junk := junk' } src' id' queue l b).2 =
      (Loop.steps env src id queue l a).2 ∧
    List.Forall₂ (EventRel U φ id id') (Loop.steps env src id queue l a).1.trace
      (Loop.steps { env with fs := U.files env.fs, junk := junk' } src' id' queue l b).1.trace ∧
    ((Loop.steps env src id queue l a).2 = none →
      LoopRel U φ id id' env.sp env.fs src n d k (Loop.steps env src id queue l a).1
        (Loop.steps { env with fs := U.files env.fs, junk := junk' } src' id' queue l b).1)
  | [], _, _, h => ⟨rfl, h.trace, fun _ => h⟩
  | i :: l, a, b, h => by
    obtain ⟨s1, s2, s3⟩ := h.step junk' hsrc queue i
    simp only [Loop.steps]
    rcases ha : a.step env src id queue i with ⟨a', _ | e⟩ <;>
      rcases hb : b.step { env with fs := U.files env.fs, junk := junk' } src' id' queue i with
        ⟨b', _ | e'⟩ <;> rw [ha, hb] at s1 s2 s3 <;> simp only at s1 s2 s3
    · exact LoopRel.steps junk' hsrc queue l (s3 trivial)
    · cases s1
    · cases s1
    · exact ⟨s1, s2, fun hc => by cases hc⟩

end Units

end Verif
