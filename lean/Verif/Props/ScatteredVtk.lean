import Verif.Props.Scattered
import Verif.Props.SurveyVtk

/-!
# C116 for VTK output
-/

namespace Verif

section
variable {α : Type} (cd : CharData) (float : Str → Option ℝ) (json : Str → List Str)
  (texts : Str → Option Str) (per : ℝ → ℝ → Py ℤ) (lower : String → String)

/-- **C116** (completion, VTK).  The particles are stored without a shape or with a shape of length
two. -/
theorem C116_vtk_completes (hl : cd.Lawful)
    (hlow : ∀ s ∈ ["rk4", "euler", "ab2", "cubic", "linear", "nearest", "grid"], lower s = s)
    {argv : List Str} {l m : List (Opt × Str)} (hs : Says cd argv l)
    (hm : FromFile (fun p => (texts p).bind (configItems cd json)) argv l m) {q : Experiment ℝ}
    (hq : Asks cd float texts per (m ++ l) q) (hsens : q.Sensible)
    (hname : q.name.head? ≠ some '/') (disk : Disk α) {env : Env ℝ FVal} (he : RealEnv env)
    {me : Scatter} (hme : q.interpolator = me.name) (hshape : q.flowGrid = none)
    (hfmt : q.format = "vtk") {v : ℝ → (Fin 2 → ℝ) → Fin 2 → ℝ} {t₁ : ℝ} {p : ℕ → NDArray ℝ}
    {n : ℕ → ℕ} {P : Particles ℝ} (survey : ScatteredSurvey env.fs q v t₁ p n P)
    {R : ℕ → Set (Fin 2 → ℝ)} {Δ : ℝ}
    (blends : ∀ j < q.velocity.length, env.sp.Blends me (p j) (n j) (R j) Δ)
    {N : ℕ}
    (hfit : q.particlesGrid = none ∨ ∃ a b, q.particlesGrid = some [a, b] ∧ a * b = N)
    {seed : NDArray ℝ} (hseed : seed.shape = [4 * N, 2]) (hp : mkParticles seed = .ok P)
    {L B M r : ℝ} {X : ℕ → ℕ → Fin 4 → ℝ → Fin 2 → ℝ} {σ : ℕ → ℕ → ℝ}
    (resolved : ScatteredResolved q v t₁ p n R Δ L B M r N (groupOf seed 4 N 2) X σ)
    (mem : ℕ → List ℕ → ℝ) {st : Started ℝ FVal}
    (hst : (startCommand cd float json texts per lower disk argv).2.2 = .ok st)
    {H : Host (Shared ℝ) (List ℕ → ℝ) (Option (List FVal) × List (Event ℝ FVal))}
    (hH : st.program.host env = .ok H)
    {s₀ s : HostState (Shared ℝ) (Option (List FVal) × List (Event ℝ FVal))}
    {as : List (Action (Option (List FVal) × List (Event ℝ FVal)))}
    (h₀ : H.init mem = .ok s₀) (h : HostState.Exec H mem s₀ as s) (hc : .crash ∉ as)
    (start stop : ℤ) :
    ∃ bs s' rs, HostState.Exec H mem s₀ (as ++ bs) s' ∧ s'.pool.phase = .returned rs ∧
      exitStatus (mainProgram start stop (.ok rs : Py _)).1 = 0 :=
  completes_with cd float json texts per lower hl hlow hs hm hq hsens hname disk env
    (fun h => setup_scatter lower hlow me (by rwa [hme, hshape] at h))
    (W := .vtk) (fun h => setup_vtk lower (by rwa [hfmt] at h)) FVal.fin _
    (fun name Λ => vtk_written2 hfit name Λ (centroid_shape2 hseed hp).1) survey.seeds
    (fun i Λ => ∀ g < N, Near (Λ g) ((q.snapshots - 1) * |q.timestep|)
      (σ i g) (stretchError2 (L * Δ) L B M q.timestep q.snapshots (groupOf seed 4 N 2 g))) mem
    (fun k i hi _ ht => survey.run he blends hseed hp resolved hsens hi ht k (mem i)) hst hH h₀ h hc
    start stop

/-- **C116** (values, VTK).  The files are `.vts` files if the particles have a shape and `.vtp` files
otherwise; the points have a third coordinate 0. -/
theorem C116_vtk_values (hl : cd.Lawful)
    (hlow : ∀ s ∈ ["rk4", "euler", "ab2", "cubic", "linear", "nearest", "grid"], lower s = s)
    {argv : List Str} {l m : List (Opt × Str)} (hs : Says cd argv l)
    (hm : FromFile (fun p => (texts p).bind (configItems cd json)) argv l m) {q : Experiment ℝ}
    (hq : Asks cd float texts per (m ++ l) q) (hsens : q.Sensible)
    (hname : q.name.head? ≠ some '/') (disk : Disk α) {env : Env ℝ FVal} (he : RealEnv env)
    (hstem : ∀ v ∈ (inRunOrder q.timestep q.velocity).take q.fields, '/' ∉ (env.stem v).toList)
    (hn : (((inRunOrder q.timestep q.velocity).take q.fields).map env.stem).Nodup)
    (htakes : disk.Takes ("outputs/".toList ++ q.name) (q.fileNames env.stem))
    {me : Scatter} (hme : q.interpolator = me.name) (hshape : q.flowGrid = none)
    (hfmt : q.format = "vtk") {v : ℝ → (Fin 2 → ℝ) → Fin 2 → ℝ} {t₁ : ℝ} {p : ℕ → NDArray ℝ}
    {n : ℕ → ℕ} {P : Particles ℝ} (survey : ScatteredSurvey env.fs q v t₁ p n P)
    {R : ℕ → Set (Fin 2 → ℝ)} {Δ : ℝ}
    (blends : ∀ j < q.velocity.length, env.sp.Blends me (p j) (n j) (R j) Δ)
    {N : ℕ}
    (hfit : q.particlesGrid = none ∨ ∃ a b, q.particlesGrid = some [a, b] ∧ a * b = N)
    {seed : NDArray ℝ} (hseed : seed.shape = [4 * N, 2]) (hp : mkParticles seed = .ok P)
    {L B M r : ℝ} {X : ℕ → ℕ → Fin 4 → ℝ → Fin 2 → ℝ} {σ : ℕ → ℕ → ℝ}
    (resolved : ScatteredResolved q v t₁ p n R Δ L B M r N (groupOf seed 4 N 2) X σ)
    (mem : ℕ → List ℕ → ℝ) {st : Started ℝ FVal}
    (hst : (startCommand cd float json texts per lower disk argv).2.2 = .ok st)
    {H : Host (Shared ℝ) (List ℕ → ℝ) (Option (List FVal) × List (Event ℝ FVal))}
    (hH : st.program.host env = .ok H)
    {s₀ s : HostState (Shared ℝ) (Option (List FVal) × List (Event ℝ FVal))}
    {as : List (Action (Option (List FVal) × List (Event ℝ FVal)))}
    {rs : List (Option (Option (List FVal) × List (Event ℝ FVal)))}
    (h₀ : H.init mem = .ok s₀) (h : HostState.Exec H mem s₀ as s)
    (hr : s.pool.phase = .returned rs)
    (order : List ℕ) (ho : order.Perm (List.range q.fields)) (file : Saved ℝ FVal → α) :
    ∀ i < q.fields, ∃ first saved, ∃ Λ : ℕ → ℝ, q.velocity[q.first i]? = some first ∧
      ((startCommand (F := FVal) cd float json texts per lower disk argv).1.writeFiles st.folder
        (st.files file rs order)).1.node (disk.target ("outputs/".toList ++ q.name) ++
          [("ftle_" ++ env.stem (String.ofList first) ++ q.extension).toList]) =
        some (.file (file saved)) ∧
      saved.Says ((List.range N).map fun g => planeRecordAt (Λ g) (groupOf seed 4 N 2 g)) ∧
      ∀ g < N, Near (Λ g) ((q.snapshots - 1) * |q.timestep|) (σ i g)
        (stretchError2 (L * Δ) L B M q.timestep q.snapshots (groupOf seed 4 N 2 g)) := by
  obtain ⟨hc1, hc2⟩ := centroid_shape2 hseed hp
  intro i hi
  obtain ⟨first, saved, Λ, g1, g2, g3, g4⟩ := saved_with cd float json texts per lower hl hlow hs
    hm hq hsens hname disk env hstem hn htakes
    (fun h => setup_scatter lower hlow me (by rwa [hme, hshape] at h)) (W := .vtk)
    (fun h => setup_vtk lower (by rwa [hfmt] at h)) FVal.fin _
    (fun name Λ => vtk_written2 hfit name Λ hc1) survey.seeds
    (fun i Λ => ∀ g < N, Near (Λ g) ((q.snapshots - 1) * |q.timestep|)
      (σ i g) (stretchError2 (L * Δ) L B M q.timestep q.snapshots (groupOf seed 4 N 2 g))) mem
    (fun k i hi _ ht => survey.run he blends hseed hp resolved hsens hi ht k (mem i)) hst hH h₀ h hr
    order ho file i hi
  refine ⟨first, saved, Λ, g1, g2, ?_, g4⟩
  simp only [hc2] at g3
  exact g3

end

end Verif
