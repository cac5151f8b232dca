import Verif.Props.Survey

/-!
# C106 for VTK output
-/

namespace Verif

/-- The record of a group of points of the plane in a VTK file: a third coordinate 0 is added. -/
noncomputable def planeRecordAt {n : ℕ} (Λ : ℝ) (x : Fin n → Fin 2 → ℝ) : FVal × List ℝ :=
  (.fin Λ, (List.ofFn fun c => (∑ b, x b c) / n) ++ [0])

theorem spaceRecords_values {N d : ℕ} (Λ : ℕ → ℝ) (c : NDArray ℝ) :
    spaceRecords N d (arrayOfList ((List.range N).map fun g => FVal.fin (Λ g))) c =
      (List.range N).map fun g => (FVal.fin (Λ g),
        ((List.range d).map fun e => c.get [g, e]) ++ List.replicate (3 - d) 0) := by
  unfold spaceRecords groupRecords groupRecord
  rw [List.map_map]
  refine List.map_congr_left fun g hg => ?_
  have hg := List.mem_range.1 hg
  simp [arrayOfList, List.getD, hg]

theorem vtk_written2 {q : Experiment ℝ} {N : ℕ}
    (hfit : q.particlesGrid = none ∨ ∃ a b, q.particlesGrid = some [a, b] ∧ a * b = N)
    (name : String) (Λ : ℕ → ℝ) {c : NDArray ℝ} (hc : c.shape = [N, 2]) :
    ∃ s, ((Writer.fresh .vtk q.particlesGrid).write name
        (arrayOfList ((List.range N).map fun g => FVal.fin (Λ g))) c).2 = .ok s ∧
      s.Says ((List.range N).map fun g =>
        (FVal.fin (Λ g), ((List.range 2).map fun e => c.get [g, e]) ++ [0])) := by
  have hsh : (arrayOfList ((List.range N).map fun g => FVal.fin (Λ g))).shape = [N] := by
    simp [arrayOfList]
  have hrec := spaceRecords_values (N := N) (d := 2) Λ c
  rcases hfit with h | ⟨a, b, h, hN⟩
  · obtain ⟨s, h1, h2⟩ := C55_unstructured name _ c N 2 (.inl rfl) hsh hc
    rw [hrec] at h2
    exact ⟨s, by rw [h]; exact h1, h2⟩
  · obtain ⟨s, h1, h2⟩ := C55_two_dim a b name _ c N hsh hc hN
    rw [hrec] at h2
    exact ⟨s, by rw [h]; exact h1, h2⟩

theorem vtk_written3 {q : Experiment ℝ} {N : ℕ} (hfit : q.particlesGrid = none)
    (name : String) (Λ : ℕ → ℝ) {c : NDArray ℝ} (hc : c.shape = [N, 3]) :
    ∃ s, ((Writer.fresh .vtk q.particlesGrid).write name
        (arrayOfList ((List.range N).map fun g => FVal.fin (Λ g))) c).2 = .ok s ∧
      s.Says ((List.range N).map fun g =>
        (FVal.fin (Λ g), (List.range 3).map fun e => c.get [g, e])) := by
  have hsh : (arrayOfList ((List.range N).map fun g => FVal.fin (Λ g))).shape = [N] := by
    simp [arrayOfList]
  have hrec := spaceRecords_values (N := N) (d := 3) Λ c
  obtain ⟨s, h1, h2⟩ := C55_unstructured name _ c N 3 (.inr rfl) hsh hc
  rw [hrec] at h2
  simp only [Nat.sub_self, List.replicate_zero, List.append_nil] at h2
  exact ⟨s, by rw [hfit]; exact h1, h2⟩

section
variable {α : Type} (cd : CharData) (float : Str → Option ℝ) (json : Str → List Str)
  (texts : Str → Option Str) (per : ℝ → ℝ → Py ℤ) (lower : String → String)

/-- **C106** (plane, completion, VTK).  The particles are stored without a shape or with a shape of
length two. -/
theorem C106_vtk_completes_2d (hl : cd.Lawful)
    (hlow : ∀ s ∈ ["rk4", "euler", "ab2", "cubic", "linear", "nearest", "grid"], lower s = s)
    {argv : List Str} {l m : List (Opt × Str)} (hs : Says cd argv l)
    (hm : FromFile (fun p => (texts p).bind (configItems cd json)) argv l m) {q : Experiment ℝ}
    (hq : Asks cd float texts per (m ++ l) q) (hsens : q.Sensible)
    (hname : q.name.head? ≠ some '/') (disk : Disk α) {env : Env ℝ FVal} (he : RealEnv env)
    (hex : ExactTarget env.m)
    {nx ny : ℕ} (hgrid : q.interpolator = "grid") (hshape : q.flowGrid = some [nx, ny])
    (hfmt : q.format = "vtk") {v : ℝ → (Fin 2 → ℝ) → Fin 2 → ℝ} {t₁ x0 dx y0 dy : ℝ}
    {P : Particles ℝ} (survey : Survey2 env.fs q v t₁ nx ny x0 dx y0 dy P) {N : ℕ}
    (hfit : q.particlesGrid = none ∨ ∃ a b, q.particlesGrid = some [a, b] ∧ a * b = N)
    {seed : NDArray ℝ} (hseed : seed.shape = [4 * N, 2]) (hp : mkParticles seed = .ok P)
    {L B M r : ℝ} {X : ℕ → ℕ → Fin 4 → ℝ → Fin 2 → ℝ} {σ : ℕ → ℕ → ℝ}
    (resolved : Resolved2 q v t₁ nx ny x0 dx y0 dy L B M r N (groupOf seed 4 N 2) X σ)
    (mem : ℕ → List ℕ → ℝ) {st : Started ℝ FVal}
    (hst : (startCommand cd float json texts per lower disk argv).2.2 = .ok st)
    {H : Host (Shared ℝ) (List ℕ → ℝ) (Option (List FVal) × List (Event ℝ FVal))}
    (hH : st.program.host env = .ok H)
    {s₀ s : HostState (Shared ℝ) (Option (List FVal) × List (Event ℝ FVal))}
    {as : List (Action (Option (List FVal) × List (Event ℝ FVal)))}
    (h₀ : H.init mem = .ok s₀) (h : HostState.Exec H mem s₀ as s) (hc : .crash ∉ as)
    (start stop : ℤ) :
    ∃ bs s' rs, HostState.Exec H mem s₀ (as ++ bs) s' ∧ s'.pool.phase = .returned rs ∧
      exitStatus (mainProgram start stop (.ok rs : Py _)).1 = 0 :=
  completes_of_runs cd float json texts per lower hl hlow hs hm hq hsens hname disk env hgrid hshape
    (W := .vtk) (fun h => setup_vtk lower (by rwa [hfmt] at h)) FVal.fin _
    (fun name Λ => vtk_written2 hfit name Λ (centroid_shape2 hseed hp).1) survey.seeds
    (fun i Λ => ∀ g < N, Near (Λ g) ((q.snapshots - 1) * |q.timestep|)
      (σ i g) (stretchError2 (L * max dx dy) L B M q.timestep q.snapshots (groupOf seed 4 N 2 g))) mem
    (fun k i hi _ ht => survey.run he hex hseed hp resolved hsens hi ht k (mem i)) hst hH h₀ h hc
    start stop

/-- **C106** (plane, values, VTK).  The files are `.vts` files if the particles have a shape and `.vtp`
files otherwise; the points have a third coordinate 0. -/
theorem C106_vtk_values_2d (hl : cd.Lawful)
    (hlow : ∀ s ∈ ["rk4", "euler", "ab2", "cubic", "linear", "nearest", "grid"], lower s = s)
    {argv : List Str} {l m : List (Opt × Str)} (hs : Says cd argv l)
    (hm : FromFile (fun p => (texts p).bind (configItems cd json)) argv l m) {q : Experiment ℝ}
    (hq : Asks cd float texts per (m ++ l) q) (hsens : q.Sensible)
    (hname : q.name.head? ≠ some '/') (disk : Disk α) {env : Env ℝ FVal} (he : RealEnv env)
    (hex : ExactTarget env.m)
    (hstem : ∀ v ∈ (inRunOrder q.timestep q.velocity).take q.fields, '/' ∉ (env.stem v).toList)
    (hn : (((inRunOrder q.timestep q.velocity).take q.fields).map env.stem).Nodup)
    (htakes : disk.Takes ("outputs/".toList ++ q.name) (q.fileNames env.stem))
    {nx ny : ℕ} (hgrid : q.interpolator = "grid") (hshape : q.flowGrid = some [nx, ny])
    (hfmt : q.format = "vtk") {v : ℝ → (Fin 2 → ℝ) → Fin 2 → ℝ} {t₁ x0 dx y0 dy : ℝ}
    {P : Particles ℝ} (survey : Survey2 env.fs q v t₁ nx ny x0 dx y0 dy P) {N : ℕ}
    (hfit : q.particlesGrid = none ∨ ∃ a b, q.particlesGrid = some [a, b] ∧ a * b = N)
    {seed : NDArray ℝ} (hseed : seed.shape = [4 * N, 2]) (hp : mkParticles seed = .ok P)
    {L B M r : ℝ} {X : ℕ → ℕ → Fin 4 → ℝ → Fin 2 → ℝ} {σ : ℕ → ℕ → ℝ}
    (resolved : Resolved2 q v t₁ nx ny x0 dx y0 dy L B M r N (groupOf seed 4 N 2) X σ)
    (mem : ℕ → List ℕ → ℝ) {st : Started ℝ FVal}
    (hst : (startCommand cd float json texts per lower disk argv).2.2 = .ok st)
    {H : Host (Shared ℝ) (List ℕ → ℝ) (Option (List FVal) × List (Event ℝ FVal))}
    (hH : st.program.host env = .ok H)
    {s₀ s : HostState (Shared ℝ) (Option (List FVal) × List (Event ℝ FVal))}
    {as : List (Action (Option (List FVal) × List (Event ℝ FVal)))}
    {rs : List (Option (Option (List FVal) × List (Event ℝ FVal)))}
    (h₀ : H.init mem = .ok s₀) (h : HostState.Exec H mem s₀ as s)
    (hr : s.pool.phase = .returned rs)
    (order : List ℕ) (ho : order.Perm (List.range q.fields)) (file : Saved ℝ FVal → α) :
    ∀ i < q.fields, ∃ first saved, ∃ Λ : ℕ → ℝ, q.velocity[q.first i]? = some first ∧
      ((startCommand (F := FVal) cd float json texts per lower disk argv).1.writeFiles st.folder
        (st.files file rs order)).1.node (disk.target ("outputs/".toList ++ q.name) ++
          [("ftle_" ++ env.stem (String.ofList first) ++ q.extension).toList]) =
        some (.file (file saved)) ∧
      saved.Says ((List.range N).map fun g => planeRecordAt (Λ g) (groupOf seed 4 N 2 g)) ∧
      ∀ g < N, Near (Λ g) ((q.snapshots - 1) * |q.timestep|) (σ i g)
        (stretchError2 (L * max dx dy) L B M q.timestep q.snapshots (groupOf seed 4 N 2 g)) := by
  obtain ⟨hc1, hc2⟩ := centroid_shape2 hseed hp
  intro i hi
  obtain ⟨first, saved, Λ, g1, g2, g3, g4⟩ := saved_of_runs cd float json texts per lower hl hlow hs
    hm hq hsens hname disk env hstem hn htakes hgrid hshape (W := .vtk)
    (fun h => setup_vtk lower (by rwa [hfmt] at h)) FVal.fin _
    (fun name Λ => vtk_written2 hfit name Λ hc1) survey.seeds
    (fun i Λ => ∀ g < N, Near (Λ g) ((q.snapshots - 1) * |q.timestep|)
      (σ i g) (stretchError2 (L * max dx dy) L B M q.timestep q.snapshots (groupOf seed 4 N 2 g))) mem
    (fun k i hi _ ht => survey.run he hex hseed hp resolved hsens hi ht k (mem i)) hst hH h₀ h hr
    order ho file i hi
  refine ⟨first, saved, Λ, g1, g2, ?_, g4⟩
  simp only [hc2] at g3
  exact g3

/-- **C106** (space, completion, VTK).  The particles are stored without a shape: with a shape points
and values do not belong together (C55). -/
theorem C106_vtk_completes_3d (hl : cd.Lawful)
    (hlow : ∀ s ∈ ["rk4", "euler", "ab2", "cubic", "linear", "nearest", "grid"], lower s = s)
    {argv : List Str} {l m : List (Opt × Str)} (hs : Says cd argv l)
    (hm : FromFile (fun p => (texts p).bind (configItems cd json)) argv l m) {q : Experiment ℝ}
    (hq : Asks cd float texts per (m ++ l) q) (hsens : q.Sensible)
    (hname : q.name.head? ≠ some '/') (disk : Disk α) {env : Env ℝ FVal} (he : RealEnv env)
    (hex : ExactTarget env.m)
    {mx nz : ℕ} (hgrid : q.interpolator = "grid") (hshape : q.flowGrid = some [mx, mx, nz])
    (hfmt : q.format = "vtk") {v : ℝ → (Fin 3 → ℝ) → Fin 3 → ℝ} {t₁ x0 dx y0 dy z0 dz : ℝ}
    {P : Particles ℝ} (survey : Survey3 env.fs q v t₁ mx nz x0 dx y0 dy z0 dz P) {N : ℕ}
    (hfit : q.particlesGrid = none)
    {seed : NDArray ℝ} (hseed : seed.shape = [6 * N, 3]) (hp : mkParticles seed = .ok P)
    {L B M r : ℝ} {X : ℕ → ℕ → Fin 6 → ℝ → Fin 3 → ℝ} {σ : ℕ → ℕ → ℝ}
    (resolved : Resolved3 q v t₁ mx nz x0 dx y0 dy z0 dz L B M r N (groupOf seed 6 N 3) X σ)
    (mem : ℕ → List ℕ → ℝ) {st : Started ℝ FVal}
    (hst : (startCommand cd float json texts per lower disk argv).2.2 = .ok st)
    {H : Host (Shared ℝ) (List ℕ → ℝ) (Option (List FVal) × List (Event ℝ FVal))}
    (hH : st.program.host env = .ok H)
    {s₀ s : HostState (Shared ℝ) (Option (List FVal) × List (Event ℝ FVal))}
    {as : List (Action (Option (List FVal) × List (Event ℝ FVal)))}
    (h₀ : H.init mem = .ok s₀) (h : HostState.Exec H mem s₀ as s) (hc : .crash ∉ as)
    (start stop : ℤ) :
    ∃ bs s' rs, HostState.Exec H mem s₀ (as ++ bs) s' ∧ s'.pool.phase = .returned rs ∧
      exitStatus (mainProgram start stop (.ok rs : Py _)).1 = 0 :=
  completes_of_runs cd float json texts per lower hl hlow hs hm hq hsens hname disk env hgrid hshape
    (W := .vtk) (fun h => setup_vtk lower (by rwa [hfmt] at h)) FVal.fin _
    (fun name Λ => vtk_written3 hfit name Λ (centroid_shape3 hseed hp).1) survey.seeds
    (fun i Λ => ∀ g < N, Near (Λ g) ((q.snapshots - 1) * |q.timestep|)
      (σ i g) (stretchError3 (L * max (max dx dy) dz) L B M q.timestep q.snapshots (groupOf seed 6 N 3 g))) mem
    (fun k i hi _ ht => survey.run he hex hseed hp resolved hsens hi ht k (mem i)) hst hH h₀ h hc
    start stop

/-- **C106** (space, values, VTK). -/
theorem C106_vtk_values_3d (hl : cd.Lawful)
    (hlow : ∀ s ∈ ["rk4", "euler", "ab2", "cubic", "linear", "nearest", "grid"], lower s = s)
    {argv : List Str} {l m : List (Opt × Str)} (hs : Says cd argv l)
    (hm : FromFile (fun p => (texts p).bind (configItems cd json)) argv l m) {q : Experiment ℝ}
    (hq : Asks cd float texts per (m ++ l) q) (hsens : q.Sensible)
    (hname : q.name.head? ≠ some '/') (disk : Disk α) {env : Env ℝ FVal} (he : RealEnv env)
    (hex : ExactTarget env.m)
    (hstem : ∀ v ∈ (inRunOrder q.timestep q.velocity).take q.fields, '/' ∉ (env.stem v).toList)
    (hn : (((inRunOrder q.timestep q.velocity).take q.fields).map env.stem).Nodup)
    (htakes : disk.Takes ("outputs/".toList ++ q.name) (q.fileNames env.stem))
    {mx nz : ℕ} (hgrid : q.interpolator = "grid") (hshape : q.flowGrid = some [mx, mx, nz])
    (hfmt : q.format = "vtk") {v : ℝ → (Fin 3 → ℝ) → Fin 3 → ℝ} {t₁ x0 dx y0 dy z0 dz : ℝ}
    {P : Particles ℝ} (survey : Survey3 env.fs q v t₁ mx nz x0 dx y0 dy z0 dz P) {N : ℕ}
    (hfit : q.particlesGrid = none)
    {seed : NDArray ℝ} (hseed : seed.shape = [6 * N, 3]) (hp : mkParticles seed = .ok P)
    {L B M r : ℝ} {X : ℕ → ℕ → Fin 6 → ℝ → Fin 3 → ℝ} {σ : ℕ → ℕ → ℝ}
    (resolved : Resolved3 q v t₁ mx nz x0 dx y0 dy z0 dz L B M r N (groupOf seed 6 N 3) X σ)
    (mem : ℕ → List ℕ → ℝ) {st : Started ℝ FVal}
    (hst : (startCommand cd float json texts per lower disk argv).2.2 = .ok st)
    {H : Host (Shared ℝ) (List ℕ → ℝ) (Option (List FVal) × List (Event ℝ FVal))}
    (hH : st.program.host env = .ok H)
    {s₀ s : HostState (Shared ℝ) (Option (List FVal) × List (Event ℝ FVal))}
    {as : List (Action (Option (List FVal) × List (Event ℝ FVal)))}
    {rs : List (Option (Option (List FVal) × List (Event ℝ FVal)))}
    (h₀ : H.init mem = .ok s₀) (h : HostState.Exec H mem s₀ as s)
    (hr : s.pool.phase = .returned rs)
    (order : List ℕ) (ho : order.Perm (List.range q.fields)) (file : Saved ℝ FVal → α) :
    ∀ i < q.fields, ∃ first saved, ∃ Λ : ℕ → ℝ, q.velocity[q.first i]? = some first ∧
      ((startCommand (F := FVal) cd float json texts per lower disk argv).1.writeFiles st.folder
        (st.files file rs order)).1.node (disk.target ("outputs/".toList ++ q.name) ++
          [("ftle_" ++ env.stem (String.ofList first) ++ q.extension).toList]) =
        some (.file (file saved)) ∧
      saved.Says ((List.range N).map fun g => groupRecordAt (Λ g) (groupOf seed 6 N 3 g)) ∧
      ∀ g < N, Near (Λ g) ((q.snapshots - 1) * |q.timestep|) (σ i g)
        (stretchError3 (L * max (max dx dy) dz) L B M q.timestep q.snapshots (groupOf seed 6 N 3 g)) := by
  obtain ⟨hc1, hc2⟩ := centroid_shape3 hseed hp
  intro i hi
  obtain ⟨first, saved, Λ, g1, g2, g3, g4⟩ := saved_of_runs cd float json texts per lower hl hlow hs
    hm hq hsens hname disk env hstem hn htakes hgrid hshape (W := .vtk)
    (fun h => setup_vtk lower (by rwa [hfmt] at h)) FVal.fin _
    (fun name Λ => vtk_written3 hfit name Λ hc1) survey.seeds
    (fun i Λ => ∀ g < N, Near (Λ g) ((q.snapshots - 1) * |q.timestep|)
      (σ i g) (stretchError3 (L * max (max dx dy) dz) L B M q.timestep q.snapshots (groupOf seed 6 N 3 g))) mem
    (fun k i hi _ ht => survey.run he hex hseed hp resolved hsens hi ht k (mem i)) hst hH h₀ h hr
    order ho file i hi
  refine ⟨first, saved, Λ, g1, g2, ?_, g4⟩
  simp only [hc2] at g3
  exact g3

end

end Verif
