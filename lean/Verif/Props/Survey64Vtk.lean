import Verif.Props.Survey64
import Verif.Props.SurveyVtk

/-!
# C115 for VTK output
-/

namespace Verif

/-- The records of groups of points of the plane in a VTK file: a third coordinate 0 is added. -/
def planeRecords64 (seed : NDArray Fl) (N : ℕ) (field : List Val64) : List (Val64 × List Fl) :=
  (runRecords seed N 2 field).map fun r => (r.1, r.2 ++ [0])

theorem spaceRecords_val64 {N d : ℕ} (Λ : ℕ → Val64) (c : NDArray Fl) :
    spaceRecords N d (arrayOfList ((List.range N).map Λ)) c =
      (List.range N).map fun g => (Λ g,
        ((List.range d).map fun e => c.get [g, e]) ++ List.replicate (3 - d) 0) := by
  unfold spaceRecords groupRecords groupRecord
  rw [List.map_map]
  refine List.map_congr_left fun g hg => ?_
  have hg := List.mem_range.1 hg
  simp [arrayOfList, List.getD, hg]

theorem vtk64_written2 {q : Experiment Fl} {N : ℕ}
    (hfit : q.particlesGrid = none ∨ ∃ a b, q.particlesGrid = some [a, b] ∧ a * b = N)
    (name : String) (Λ : ℕ → Val64) {c : NDArray Fl} (hc : c.shape = [N, 2]) :
    ∃ s, ((Writer.fresh .vtk q.particlesGrid).write name
        (arrayOfList ((List.range N).map fun g => Λ g)) c).2 = .ok s ∧
      s.Says ((List.range N).map fun g =>
        (Λ g, ((List.range 2).map fun e => c.get [g, e]) ++ [0])) := by
  have hsh : (arrayOfList ((List.range N).map fun g => Λ g)).shape = [N] := by simp [arrayOfList]
  have hrec := spaceRecords_val64 (N := N) (d := 2) Λ c
  rcases hfit with h | ⟨a, b, h, hN⟩
  · obtain ⟨s, h1, h2⟩ := C55_unstructured name _ c N 2 (.inl rfl) hsh hc
    rw [hrec] at h2
    exact ⟨s, by rw [h]; exact h1, h2⟩
  · obtain ⟨s, h1, h2⟩ := C55_two_dim a b name _ c N hsh hc hN
    rw [hrec] at h2
    exact ⟨s, by rw [h]; exact h1, h2⟩

theorem vtk64_written3 {q : Experiment Fl} {N : ℕ} (hfit : q.particlesGrid = none)
    (name : String) (Λ : ℕ → Val64) {c : NDArray Fl} (hc : c.shape = [N, 3]) :
    ∃ s, ((Writer.fresh .vtk q.particlesGrid).write name
        (arrayOfList ((List.range N).map fun g => Λ g)) c).2 = .ok s ∧
      s.Says ((List.range N).map fun g =>
        (Λ g, (List.range 3).map fun e => c.get [g, e])) := by
  have hsh : (arrayOfList ((List.range N).map fun g => Λ g)).shape = [N] := by simp [arrayOfList]
  have hrec := spaceRecords_val64 (N := N) (d := 3) Λ c
  obtain ⟨s, h1, h2⟩ := C55_unstructured name _ c N 3 (.inr rfl) hsh hc
  rw [hrec] at h2
  simp only [Nat.sub_self, List.replicate_zero, List.append_nil] at h2
  exact ⟨s, by rw [hfit]; exact h1, h2⟩

section
variable {α : Type} (cd : CharData) (float : Str → Option Fl) (json : Str → List Str)
  (texts : Str → Option Str) (per : Fl → Fl → Py ℤ) (lower : String → String)

/-- **C115** (plane, completion, VTK).  The particles are stored without a shape or with a shape of
length two. -/
theorem C115_vtk_completes_2d (hl : cd.Lawful)
    (hlow : ∀ s ∈ ["rk4", "euler", "ab2", "cubic", "linear", "nearest", "grid"], lower s = s)
    {argv : List Str} {l m : List (Opt × Str)} (hs : Says cd argv l)
    (hm : FromFile (fun p => (texts p).bind (configItems cd json)) argv l m) {q : Experiment Fl}
    (hq : Asks cd float texts per (m ++ l) q) (hsens : q.Sensible)
    (hname : q.name.head? ≠ some '/') (disk : Disk α) {env : Env Fl Val64} {lm : Libm} {κ : ℝ}
    (he : Env64 env lm) (hex : Target64 env.m) (hacc : lm.Accurate κ) (hκ0 : 0 ≤ κ) (hκ : κ ≤ 1 / 100)
    {nx ny : ℕ} (hgrid : q.interpolator = "grid") (hshape : q.flowGrid = some [nx, ny])
    (hfmt : q.format = "vtk") {v : ℝ → (Fin 2 → ℝ) → Fin 2 → ℝ} {t₁ dx dy ζ ν : ℝ} {xs ys : ℕ → Fl}
    {P : Particles Fl} (survey : Survey64 env.fs q v t₁ nx ny xs ys dx dy ζ ν P) {N : ℕ}
    
    (hfit : q.particlesGrid = none ∨ ∃ a b, q.particlesGrid = some [a, b] ∧ a * b = N)
    {seed : NDArray Fl} (hseed : seed.shape = [4 * N, 2])
    (hp : mkParticles seed = .ok P) {L B M r W : ℝ} {X : ℕ → ℕ → Fin 4 → ℝ → Fin 2 → ℝ}
    {D : ℕ → ℕ → Matrix (Fin 2) (Fin 2) ℝ} {σ b : ℕ → ℕ → ℝ}
    (resolved : Resolved64 q v t₁ nx ny xs ys dx dy ζ ν L B M r W N seed X D σ b)
    (mem : ℕ → List ℕ → Fl) {st : Started Fl Val64}
    (hst : (startCommand cd float json texts per lower disk argv).2.2 = .ok st)
    {H : Host (Shared Fl) (List ℕ → Fl) (Option (List Val64) × List (Event Fl Val64))}
    (hH : st.program.host env = .ok H)
    {s₀ s : HostState (Shared Fl) (Option (List Val64) × List (Event Fl Val64))}
    {as : List (Action (Option (List Val64) × List (Event Fl Val64)))}
    (h₀ : H.init mem = .ok s₀) (h : HostState.Exec H mem s₀ as s) (hc : .crash ∉ as)
    (start stop : ℤ) :
    ∃ bs s' rs, HostState.Exec H mem s₀ (as ++ bs) s' ∧ s'.pool.phase = .returned rs ∧
      exitStatus (mainProgram start stop (.ok rs : Py _)).1 = 0 :=
  completes_of_runs cd float json texts per lower hl hlow hs hm hq hsens hname disk env hgrid hshape
    (W := .vtk) (fun h => setup_vtk lower (by rwa [hfmt] at h)) (fun x : Val64 => x) _
    (fun name Λ => vtk64_written2 hfit name Λ (centroid_rows2 hseed hp)) survey.seeds
    (fun i Λ => Good64 N q.snapshots q.timestep κ (D i) (σ i) (b i) Λ) mem
    (fun k i hi _ ht => survey.run he hex hacc hκ0 hκ hseed hp resolved hsens hi ht k (mem i))
    hst hH h₀ h hc start stop

/-- **C115** (plane, values, VTK).  The files are `.vts` files if the particles have a shape and `.vtp`
files otherwise; the points have a third coordinate 0. -/
theorem C115_vtk_values_2d (hl : cd.Lawful)
    (hlow : ∀ s ∈ ["rk4", "euler", "ab2", "cubic", "linear", "nearest", "grid"], lower s = s)
    {argv : List Str} {l m : List (Opt × Str)} (hs : Says cd argv l)
    (hm : FromFile (fun p => (texts p).bind (configItems cd json)) argv l m) {q : Experiment Fl}
    (hq : Asks cd float texts per (m ++ l) q) (hsens : q.Sensible)
    (hname : q.name.head? ≠ some '/') (disk : Disk α) {env : Env Fl Val64} {lm : Libm} {κ : ℝ}
    (he : Env64 env lm) (hex : Target64 env.m) (hacc : lm.Accurate κ) (hκ0 : 0 ≤ κ) (hκ : κ ≤ 1 / 100)
    (hstem : ∀ v ∈ (inRunOrder q.timestep q.velocity).take q.fields, '/' ∉ (env.stem v).toList)
    (hn : (((inRunOrder q.timestep q.velocity).take q.fields).map env.stem).Nodup)
    (htakes : disk.Takes ("outputs/".toList ++ q.name) (q.fileNames env.stem))
    {nx ny : ℕ} (hgrid : q.interpolator = "grid") (hshape : q.flowGrid = some [nx, ny])
    (hfmt : q.format = "vtk") {v : ℝ → (Fin 2 → ℝ) → Fin 2 → ℝ} {t₁ dx dy ζ ν : ℝ} {xs ys : ℕ → Fl}
    {P : Particles Fl} (survey : Survey64 env.fs q v t₁ nx ny xs ys dx dy ζ ν P) {N : ℕ}
    
    (hfit : q.particlesGrid = none ∨ ∃ a b, q.particlesGrid = some [a, b] ∧ a * b = N)
    {seed : NDArray Fl} (hseed : seed.shape = [4 * N, 2])
    (hp : mkParticles seed = .ok P) {L B M r W : ℝ} {X : ℕ → ℕ → Fin 4 → ℝ → Fin 2 → ℝ}
    {D : ℕ → ℕ → Matrix (Fin 2) (Fin 2) ℝ} {σ b : ℕ → ℕ → ℝ}
    (resolved : Resolved64 q v t₁ nx ny xs ys dx dy ζ ν L B M r W N seed X D σ b)
    (mem : ℕ → List ℕ → Fl) {st : Started Fl Val64}
    (hst : (startCommand cd float json texts per lower disk argv).2.2 = .ok st)
    {H : Host (Shared Fl) (List ℕ → Fl) (Option (List Val64) × List (Event Fl Val64))}
    (hH : st.program.host env = .ok H)
    {s₀ s : HostState (Shared Fl) (Option (List Val64) × List (Event Fl Val64))}
    {as : List (Action (Option (List Val64) × List (Event Fl Val64)))}
    {rs : List (Option (Option (List Val64) × List (Event Fl Val64)))}
    (h₀ : H.init mem = .ok s₀) (h : HostState.Exec H mem s₀ as s)
    (hr : s.pool.phase = .returned rs)
    (order : List ℕ) (ho : order.Perm (List.range q.fields)) (file : Saved Fl Val64 → α) :
    ∀ i < q.fields, ∃ first saved, ∃ Λ : ℕ → Val64, q.velocity[q.first i]? = some first ∧
      ((startCommand (F := Val64) cd float json texts per lower disk argv).1.writeFiles st.folder
        (st.files file rs order)).1.node (disk.target ("outputs/".toList ++ q.name) ++
          [("ftle_" ++ env.stem (String.ofList first) ++ q.extension).toList]) =
        some (.file (file saved)) ∧
      saved.Says (planeRecords64 seed N ((List.range N).map Λ)) ∧
      Good64 N q.snapshots q.timestep κ (D i) (σ i) (b i) Λ := by
  intro i hi
  obtain ⟨first, saved, Λ, g1, g2, g3, g4⟩ := saved_of_runs cd float json texts per lower hl hlow hs
    hm hq hsens hname disk env hstem hn htakes hgrid hshape (W := .vtk)
    (fun h => setup_vtk lower (by rwa [hfmt] at h)) (fun x : Val64 => x) _
    (fun name Λ => vtk64_written2 hfit name Λ (centroid_rows2 hseed hp)) survey.seeds
    (fun i Λ => Good64 N q.snapshots q.timestep κ (D i) (σ i) (b i) Λ) mem
    (fun k i hi _ ht => survey.run he hex hacc hκ0 hκ hseed hp resolved hsens hi ht k (mem i))
    hst hH h₀ h hr order ho file i hi
  refine ⟨first, saved, Λ, g1, g2, ?_, g4⟩
  rw [planeRecords64, ← records64 (.inl rfl) hseed hp Λ, List.map_map]
  exact g3

/-- **C115** (space, completion, VTK).  The particles are stored without a shape: with a shape points
and values do not belong together (C55). -/
theorem C115_vtk_completes_3d (hl : cd.Lawful)
    (hlow : ∀ s ∈ ["rk4", "euler", "ab2", "cubic", "linear", "nearest", "grid"], lower s = s)
    {argv : List Str} {l m : List (Opt × Str)} (hs : Says cd argv l)
    (hm : FromFile (fun p => (texts p).bind (configItems cd json)) argv l m) {q : Experiment Fl}
    (hq : Asks cd float texts per (m ++ l) q) (hsens : q.Sensible)
    (hname : q.name.head? ≠ some '/') (disk : Disk α) {env : Env Fl Val64} {lm : Libm} {la : Linalg} {κ μ : ℝ}
    (he : Env64x3 env lm la) (hex : Target64 env.m) (hacc : lm.Accurate κ) (hκ0 : 0 ≤ κ) (hκ : κ ≤ 1 / 100)
    (ha : la.Accurate μ) (hμ0 : 0 ≤ μ) (hμ : μ ≤ 1 / 10 ^ 6)
    {mx nz : ℕ} (hgrid : q.interpolator = "grid") (hshape : q.flowGrid = some [mx, mx, nz])
    (hfmt : q.format = "vtk") {v : ℝ → (Fin 3 → ℝ) → Fin 3 → ℝ} {t₁ dx dy dz ζ ν : ℝ} {xs ys zs : ℕ → Fl}
    {P : Particles Fl} (survey : Survey64x3 env.fs q v t₁ mx nz xs ys zs dx dy dz ζ ν P) {N : ℕ}
    (hfit : q.particlesGrid = none) {seed : NDArray Fl} (hseed : seed.shape = [6 * N, 3])
    (hp : mkParticles seed = .ok P) {L B M r W : ℝ} {X : ℕ → ℕ → Fin 6 → ℝ → Fin 3 → ℝ}
    {D : ℕ → ℕ → Matrix (Fin 3) (Fin 3) ℝ} {σ b : ℕ → ℕ → ℝ}
    (resolved : Resolved64x3 q v t₁ mx nz xs ys zs dx dy dz ζ ν L B M r W N seed X D σ b)
    (mem : ℕ → List ℕ → Fl) {st : Started Fl Val64}
    (hst : (startCommand cd float json texts per lower disk argv).2.2 = .ok st)
    {H : Host (Shared Fl) (List ℕ → Fl) (Option (List Val64) × List (Event Fl Val64))}
    (hH : st.program.host env = .ok H)
    {s₀ s : HostState (Shared Fl) (Option (List Val64) × List (Event Fl Val64))}
    {as : List (Action (Option (List Val64) × List (Event Fl Val64)))}
    (h₀ : H.init mem = .ok s₀) (h : HostState.Exec H mem s₀ as s) (hc : .crash ∉ as)
    (start stop : ℤ) :
    ∃ bs s' rs, HostState.Exec H mem s₀ (as ++ bs) s' ∧ s'.pool.phase = .returned rs ∧
      exitStatus (mainProgram start stop (.ok rs : Py _)).1 = 0 :=
  completes_of_runs cd float json texts per lower hl hlow hs hm hq hsens hname disk env hgrid hshape
    (W := .vtk) (fun h => setup_vtk lower (by rwa [hfmt] at h)) (fun x : Val64 => x) _
    (fun name Λ => vtk64_written3 hfit name Λ (centroid_rows3 hseed hp)) survey.seeds
    (fun i Λ => Good64x3 N q.snapshots q.timestep κ μ (σ i) (b i) Λ) mem
    (fun k i hi _ ht => survey.run he hex hacc hκ0 hκ ha hμ0 hμ hseed hp resolved hsens hi ht k (mem i))
    hst hH h₀ h hc start stop

/-- **C115** (space, values, VTK). -/
theorem C115_vtk_values_3d (hl : cd.Lawful)
    (hlow : ∀ s ∈ ["rk4", "euler", "ab2", "cubic", "linear", "nearest", "grid"], lower s = s)
    {argv : List Str} {l m : List (Opt × Str)} (hs : Says cd argv l)
    (hm : FromFile (fun p => (texts p).bind (configItems cd json)) argv l m) {q : Experiment Fl}
    (hq : Asks cd float texts per (m ++ l) q) (hsens : q.Sensible)
    (hname : q.name.head? ≠ some '/') (disk : Disk α) {env : Env Fl Val64} {lm : Libm} {la : Linalg} {κ μ : ℝ}
    (he : Env64x3 env lm la) (hex : Target64 env.m) (hacc : lm.Accurate κ) (hκ0 : 0 ≤ κ) (hκ : κ ≤ 1 / 100)
    (ha : la.Accurate μ) (hμ0 : 0 ≤ μ) (hμ : μ ≤ 1 / 10 ^ 6)
    (hstem : ∀ v ∈ (inRunOrder q.timestep q.velocity).take q.fields, '/' ∉ (env.stem v).toList)
    (hn : (((inRunOrder q.timestep q.velocity).take q.fields).map env.stem).Nodup)
    (htakes : disk.Takes ("outputs/".toList ++ q.name) (q.fileNames env.stem))
    {mx nz : ℕ} (hgrid : q.interpolator = "grid") (hshape : q.flowGrid = some [mx, mx, nz])
    (hfmt : q.format = "vtk") {v : ℝ → (Fin 3 → ℝ) → Fin 3 → ℝ} {t₁ dx dy dz ζ ν : ℝ} {xs ys zs : ℕ → Fl}
    {P : Particles Fl} (survey : Survey64x3 env.fs q v t₁ mx nz xs ys zs dx dy dz ζ ν P) {N : ℕ}
    (hfit : q.particlesGrid = none) {seed : NDArray Fl} (hseed : seed.shape = [6 * N, 3])
    (hp : mkParticles seed = .ok P) {L B M r W : ℝ} {X : ℕ → ℕ → Fin 6 → ℝ → Fin 3 → ℝ}
    {D : ℕ → ℕ → Matrix (Fin 3) (Fin 3) ℝ} {σ b : ℕ → ℕ → ℝ}
    (resolved : Resolved64x3 q v t₁ mx nz xs ys zs dx dy dz ζ ν L B M r W N seed X D σ b)
    (mem : ℕ → List ℕ → Fl) {st : Started Fl Val64}
    (hst : (startCommand cd float json texts per lower disk argv).2.2 = .ok st)
    {H : Host (Shared Fl) (List ℕ → Fl) (Option (List Val64) × List (Event Fl Val64))}
    (hH : st.program.host env = .ok H)
    {s₀ s : HostState (Shared Fl) (Option (List Val64) × List (Event Fl Val64))}
    {as : List (Action (Option (List Val64) × List (Event Fl Val64)))}
    {rs : List (Option (Option (List Val64) × List (Event Fl Val64)))}
    (h₀ : H.init mem = .ok s₀) (h : HostState.Exec H mem s₀ as s)
    (hr : s.pool.phase = .returned rs)
    (order : List ℕ) (ho : order.Perm (List.range q.fields)) (file : Saved Fl Val64 → α) :
    ∀ i < q.fields, ∃ first saved, ∃ Λ : ℕ → Val64, q.velocity[q.first i]? = some first ∧
      ((startCommand (F := Val64) cd float json texts per lower disk argv).1.writeFiles st.folder
        (st.files file rs order)).1.node (disk.target ("outputs/".toList ++ q.name) ++
          [("ftle_" ++ env.stem (String.ofList first) ++ q.extension).toList]) =
        some (.file (file saved)) ∧
      saved.Says (runRecords seed N 3 ((List.range N).map Λ)) ∧
      Good64x3 N q.snapshots q.timestep κ μ (σ i) (b i) Λ := by
  intro i hi
  obtain ⟨first, saved, Λ, g1, g2, g3, g4⟩ := saved_of_runs cd float json texts per lower hl hlow hs
    hm hq hsens hname disk env hstem hn htakes hgrid hshape (W := .vtk)
    (fun h => setup_vtk lower (by rwa [hfmt] at h)) (fun x : Val64 => x) _
    (fun name Λ => vtk64_written3 hfit name Λ (centroid_rows3 hseed hp)) survey.seeds
    (fun i Λ => Good64x3 N q.snapshots q.timestep κ μ (σ i) (b i) Λ) mem
    (fun k i hi _ ht => survey.run he hex hacc hκ0 hκ ha hμ0 hμ hseed hp resolved hsens hi ht k (mem i))
    hst hH h₀ h hr order ho file i hi
  refine ⟨first, saved, Λ, g1, g2, ?_, g4⟩
  rw [← records64 (.inr rfl) hseed hp Λ]
  exact g3

end

end Verif
