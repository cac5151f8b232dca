import Verif.Spec.Survey64
import Verif.Props.Survey

/-!
# C115: from the command line to accurate files in binary64
-/

namespace Verif

open Matrix Set

/-! ## The windows of a survey -/

/-- The time of the snapshots of a window. -/
theorem startTime64_step (q : Experiment Fl) (start : ℝ) {i j : ℕ} (h : i + j < q.velocity.length) :
    q.startTime64 start i + j * q.timestep.re = start + q.first (i + j) * |q.timestep.re| := by
  unfold Experiment.startTime64 Experiment.first
  have hlt : q.timestep < 0 ↔ q.timestep.re < 0 := by
    show q.timestep.val < 0 ↔ (q.timestep.val : ℝ) < 0
    norm_cast
  split
  · next hn =>
    rw [abs_of_neg (hlt.1 hn)]
    have e : q.velocity.length - 1 - i = q.velocity.length - 1 - (i + j) + j := by omega
    rw [e]
    push_cast
    ring
  · next hn =>
    rw [abs_of_nonneg (not_lt.1 fun h => hn (hlt.2 h))]
    push_cast
    ring

section
variable {q : Experiment Fl} {stem : String → String} {i : ℕ} {t : FileSource Fl}

/-- The window of a field of a plane survey samples the flow from the time of its start. -/
theorem Survey64.window {fs : MatFS Fl} {v : ℝ → (Fin 2 → ℝ) → Fin 2 → ℝ} {start : ℝ} {nx ny : ℕ}
    {xs ys : ℕ → Fl} {dx dy ζ ν : ℝ} {P : Particles Fl}
    (sv : Survey64 fs q v start nx ny xs ys dx dy ζ ν P)
    (hp : 2 ≤ q.snapshots) (hi : i < q.fields) (he : q.snapshots ≤ q.velocity.length)
    (ht : IsWindow stem (inRunOrder q.timestep q.velocity) (inRunOrder q.timestep q.coordinate)
      (inRunOrder q.timestep q.particle) q.timestep q.snapshots i t) :
    Samples64 fs t v (q.startTime64 start i) nx ny xs ys dx dy ζ ν where
  fresh := window_fresh sv.several sv.distinct hp ht
  x := sv.x
  y := sv.y
  data := by
    intro j hj
    rw [ht.snapshots_length] at hj
    obtain ⟨f, f1, f2⟩ := window_velocity hi he ht hj
    obtain ⟨c, c1, c2⟩ := window_coordinate sv.several ht hj
    obtain ⟨V, v1, v2, v3⟩ := sv.samples _ f f1
    obtain ⟨C, d1, d2, d3⟩ := sv.nodes c c1
    refine ⟨V, C, ⟨⟨_, f2, v1⟩, _, c2, d1⟩, v2, d2, d3, ?_⟩
    rw [ht.timestep, startTime64_step]
    · exact v3
    · unfold Experiment.fields at hi
      omega

/-- The same in space. -/
theorem Survey64x3.window {fs : MatFS Fl} {v : ℝ → (Fin 3 → ℝ) → Fin 3 → ℝ} {start : ℝ} {m nz : ℕ}
    {xs ys zs : ℕ → Fl} {dx dy dz ζ ν : ℝ} {P : Particles Fl}
    (sv : Survey64x3 fs q v start m nz xs ys zs dx dy dz ζ ν P)
    (hp : 2 ≤ q.snapshots) (hi : i < q.fields) (he : q.snapshots ≤ q.velocity.length)
    (ht : IsWindow stem (inRunOrder q.timestep q.velocity) (inRunOrder q.timestep q.coordinate)
      (inRunOrder q.timestep q.particle) q.timestep q.snapshots i t) :
    Samples64x3 fs t v (q.startTime64 start i) m nz xs ys zs dx dy dz ζ ν where
  fresh := window_fresh sv.several sv.distinct hp ht
  x := sv.x
  y := sv.y
  z := sv.z
  lim := sv.lim
  data := by
    intro j hj
    rw [ht.snapshots_length] at hj
    obtain ⟨f, f1, f2⟩ := window_velocity hi he ht hj
    obtain ⟨c, c1, c2⟩ := window_coordinate sv.several ht hj
    obtain ⟨V, v1, v2, v3⟩ := sv.samples _ f f1
    obtain ⟨C, d1, d2, d3⟩ := sv.nodes c c1
    refine ⟨V, C, ⟨⟨_, f2, v1⟩, _, c2, d1⟩, v2, d2, d3, ?_⟩
    rw [ht.timestep, startTime64_step]
    · exact v3
    · unfold Experiment.fields at hi
      omega

/-- The run on a window of a plane survey. -/
theorem Survey64.run {env : Env Fl Val64} {lm : Libm} {κ : ℝ} (he : Env64 env lm)
    (hex : Target64 env.m) (hacc : lm.Accurate κ) (hκ0 : 0 ≤ κ) (hκ : κ ≤ 1 / 100)
    {v : ℝ → (Fin 2 → ℝ) → Fin 2 → ℝ} {start : ℝ} {nx ny : ℕ} {xs ys : ℕ → Fl}
    {dx dy ζ ν : ℝ} {P : Particles Fl}
    (sv : Survey64 env.fs q v start nx ny xs ys dx dy ζ ν P)
    {N : ℕ} {seed : NDArray Fl} (hs : seed.shape = [4 * N, 2]) (hp : mkParticles seed = .ok P)
    {L B M r W : ℝ} {X : ℕ → ℕ → Fin 4 → ℝ → Fin 2 → ℝ}
    {D : ℕ → ℕ → Matrix (Fin 2) (Fin 2) ℝ} {σ b : ℕ → ℕ → ℝ}
    (rs : Resolved64 q v start nx ny xs ys dx dy ζ ν L B M r W N seed X D σ b)
    (hq : q.Sensible) (hi : i < q.fields)
    (ht : IsWindow stem (inRunOrder q.timestep q.velocity) (inRunOrder q.timestep q.coordinate)
      (inRunOrder q.timestep q.particle) q.timestep q.snapshots i t) (k : Kind) (mem : List ℕ → Fl) :
    ∃ Λ : ℕ → Val64, (aloneRun { env with junk := mem } none (.file t)
        (.highPerf (HighPerf.fresh [nx, ny])) k).result = .ok (some ((List.range N).map Λ)) ∧
      Good64 N q.snapshots q.timestep κ (D i) (σ i) (b i) Λ := by
  obtain ⟨f, hf, hfe⟩ := window_particle hq.particle_ne ht
  have hlt : ∀ j < q.snapshots, i + j < q.velocity.length := by
    intro j hj
    have := hq.enough
    unfold Experiment.fields at hi
    omega
  have hfl : ∀ j < q.snapshots, q.first (i + j) < q.velocity.length := by
    intro j hj
    have := hlt j hj
    unfold Experiment.first
    split <;> omega
  have hpos : (0 : ℝ) < 2 ^ (-500 : ℤ) := by positivity
  have hD := rs.stretching i hi
  set e := steadyError q.snapshots q.timestep (gridError64 L B (max dx dy) ζ ν)
    (gridLip64 L) B M r W with hee
  set b' : ℕ → ℝ := fun i' => 41 / 10 * e *
    (1 / |(groupOf seed 4 N 2 i' 1 0).re - (groupOf seed 4 N 2 i' 0 0).re| +
      1 / |(groupOf seed 4 N 2 i' 2 1).re - (groupOf seed 4 N 2 i' 3 1).re|) +
    2 ^ (-53 : ℤ) * (1 + 16 * σ i i') with hb'
  have hbb : ∀ g < N, b' g = b i g := fun g hg => (hD.bound g hg).symm
  obtain ⟨Λ, h1, h2⟩ := C87_gridded_2d (env := { env with junk := mem }) ⟨he.abs, he.f2⟩ hex
    hacc hκ0 hκ true k
    (sv.window rs.two_le hi hq.enough ht) ht.snapshots_length rs.two_le ht.timestep rs.step rs.span
    rs.radius rs.constant rfl rfl rfl rs.small hs hp (by rw [hfe]; exact sv.seeds f hf) (X i)
    (rs.trajectories i hi)
    (fun j hj => by rw [startTime64_step q start (hlt j hj)]; exact rs.lipschitz _ (hfl j hj))
    (rs.inside i hi) _ _ (fun g hg => ⟨rfl, rfl, hD.apart g hg⟩) (D i)
    (fun g hg => by
      obtain ⟨a1, a2⟩ := hD.apart g hg
      rw [centralDiff2_ok]
      exact ⟨⟨abs_pos.1 (hpos.trans_le a1), abs_pos.1 (hpos.trans_le a2)⟩, hD.diffs g hg⟩)
    (σ i) b' (fun g => rfl)
    (fun g hg => ⟨hD.stretch g hg, by rw [hbb g hg]; exact hD.room g hg⟩)
  refine ⟨Λ, h1, fun g hg => ?_⟩
  have := h2 g hg
  rwa [hbb g hg] at this

/-- The run on a window of a survey in space. -/
theorem Survey64x3.run {env : Env Fl Val64} {lm : Libm} {la : Linalg} {κ μ : ℝ} (he : Env64x3 env lm la)
    (hex : Target64 env.m) (hacc : lm.Accurate κ) (hκ0 : 0 ≤ κ) (hκ : κ ≤ 1 / 100)
    (ha : la.Accurate μ) (hμ0 : 0 ≤ μ) (hμ : μ ≤ 1 / 10 ^ 6)
    {v : ℝ → (Fin 3 → ℝ) → Fin 3 → ℝ} {start : ℝ} {mx nz : ℕ} {xs ys zs : ℕ → Fl}
    {dx dy dz ζ ν : ℝ} {P : Particles Fl}
    (sv : Survey64x3 env.fs q v start mx nz xs ys zs dx dy dz ζ ν P)
    {N : ℕ} {seed : NDArray Fl} (hs : seed.shape = [6 * N, 3]) (hp : mkParticles seed = .ok P)
    {L B M r W : ℝ} {X : ℕ → ℕ → Fin 6 → ℝ → Fin 3 → ℝ}
    {D : ℕ → ℕ → Matrix (Fin 3) (Fin 3) ℝ} {σ b : ℕ → ℕ → ℝ}
    (rs : Resolved64x3 q v start mx nz xs ys zs dx dy dz ζ ν L B M r W N seed X D σ b)
    (hq : q.Sensible) (hi : i < q.fields)
    (ht : IsWindow stem (inRunOrder q.timestep q.velocity) (inRunOrder q.timestep q.coordinate)
      (inRunOrder q.timestep q.particle) q.timestep q.snapshots i t) (k : Kind) (mem : List ℕ → Fl) :
    ∃ Λ : ℕ → Val64, (aloneRun { env with junk := mem } none (.file t)
        (.highPerf (HighPerf.fresh [mx, mx, nz])) k).result = .ok (some ((List.range N).map Λ)) ∧
      Good64x3 N q.snapshots q.timestep κ μ (σ i) (b i) Λ := by
  obtain ⟨f, hf, hfe⟩ := window_particle hq.particle_ne ht
  have hlt : ∀ j < q.snapshots, i + j < q.velocity.length := by
    intro j hj
    have := hq.enough
    unfold Experiment.fields at hi
    omega
  have hfl : ∀ j < q.snapshots, q.first (i + j) < q.velocity.length := by
    intro j hj
    have := hlt j hj
    unfold Experiment.first
    split <;> omega
  have hpos : (0 : ℝ) < 2 ^ (-500 : ℤ) := by positivity
  have hD := rs.stretching i hi
  set e := steadyError q.snapshots q.timestep (gridError64 L B (max (max dx dy) dz) ζ ν)
    (gridLip64 L) B M r W with hee
  set b' : ℕ → ℝ := fun i' => 62 / 10 * e *
    (1 / |(groupOf seed 6 N 3 i' 1 0).re - (groupOf seed 6 N 3 i' 0 0).re| +
      1 / |(groupOf seed 6 N 3 i' 2 1).re - (groupOf seed 6 N 3 i' 3 1).re| +
      1 / |(groupOf seed 6 N 3 i' 4 2).re - (groupOf seed 6 N 3 i' 5 2).re|) +
    2 ^ (-53 : ℤ) * (1 + 36 * σ i i') with hb'
  have hbb : ∀ g < N, b' g = b i g := fun g hg => (hD.bound g hg).symm
  obtain ⟨Λ, h1, h2⟩ := C113_gridded_3d (env := { env with junk := mem }) (l := lm) ⟨he.abs, he.f3⟩ hex
    hacc hκ0 hκ ha hμ0 hμ true k
    (sv.window rs.two_le hi hq.enough ht) ht.snapshots_length rs.two_le ht.timestep rs.step rs.span
    rs.radius rs.constant rfl rfl rfl rs.small hs hp (by rw [hfe]; exact sv.seeds f hf) (X i)
    (rs.trajectories i hi)
    (fun j hj => by rw [startTime64_step q start (hlt j hj)]; exact rs.lipschitz _ (hfl j hj))
    (rs.inside i hi) _ _ _ (fun g hg => ⟨rfl, rfl, rfl, hD.apart g hg⟩) (D i)
    (fun g hg => by
      obtain ⟨a1, a2, a3⟩ := hD.apart g hg
      rw [centralDiff3_ok]
      exact ⟨⟨abs_pos.1 (hpos.trans_le a1), abs_pos.1 (hpos.trans_le a2), abs_pos.1 (hpos.trans_le a3)⟩, hD.diffs g hg⟩)
    (σ i) b' (fun g => rfl)
    (fun g hg => ⟨hD.stretch g hg, by rw [hbb g hg]; exact hD.room g hg⟩)
  refine ⟨Λ, h1, fun g hg => ?_⟩
  have := h2 g hg
  rwa [hbb g hg] at this

end

/-! ## The files -/

theorem centroid_rows2 {N : ℕ} {seed : NDArray Fl} (hs : seed.shape = [4 * N, 2])
    {P : Particles Fl} (hp : mkParticles seed = .ok P) : P.initialCentroid.shape = [N, 2] := by
  obtain ⟨p, h1, -, -, -, -, h2, -⟩ := mkParticles_2d hs
  rw [hp] at h1
  cases h1
  exact h2

theorem centroid_rows3 {N : ℕ} {seed : NDArray Fl} (hs : seed.shape = [6 * N, 3])
    {P : Particles Fl} (hp : mkParticles seed = .ok P) : P.initialCentroid.shape = [N, 3] := by
  obtain ⟨p, h1, -, -, -, -, -, h2, -⟩ := mkParticles_3d hs
  rw [hp] at h1
  cases h1
  exact h2

theorem records64 {N d : ℕ} (hd : d = 2 ∨ d = 3) {seed : NDArray Fl}
    (hs : seed.shape = [2 * d * N, d]) {P : Particles Fl} (hp : mkParticles seed = .ok P)
    (Λ : ℕ → Val64) :
    ((List.range N).map fun g => (Λ g, (List.range d).map fun e => P.initialCentroid.get [g, e])) =
      runRecords seed N d ((List.range N).map Λ) := by
  rw [← groupRecords_run hd hs hp (by simp)]
  unfold groupRecords groupRecord
  refine List.map_congr_left fun g hg => ?_
  have hg := List.mem_range.1 hg
  simp [arrayOfList, List.getD, hg]

section
variable {α : Type} (cd : CharData) (float : Str → Option Fl) (json : Str → List Str)
  (texts : Str → Option Str) (per : Fl → Fl → Py ℤ) (lower : String → String)

/-- **C115** (plane, completion).  As C106, with binary64 files, seeds and time step and every
operation rounded: a call of the program with the fast interpolator and `.mat` output on a survey that
resolves the flow runs to its end.  Every execution in which no worker dies can be continued until the
executor returns, and the exit status is then 0. -/
theorem C115_completes_2d (hl : cd.Lawful)
    (hlow : ∀ s ∈ ["rk4", "euler", "ab2", "cubic", "linear", "nearest", "grid"], lower s = s)
    {argv : List Str} {l m : List (Opt × Str)} (hs : Says cd argv l)
    (hm : FromFile (fun p => (texts p).bind (configItems cd json)) argv l m) {q : Experiment Fl}
    (hq : Asks cd float texts per (m ++ l) q) (hsens : q.Sensible)
    (hname : q.name.head? ≠ some '/') (disk : Disk α) {env : Env Fl Val64} {lm : Libm} {κ : ℝ}
    (he : Env64 env lm) (hex : Target64 env.m) (hacc : lm.Accurate κ) (hκ0 : 0 ≤ κ) (hκ : κ ≤ 1 / 100)
    {nx ny : ℕ} (hgrid : q.interpolator = "grid") (hshape : q.flowGrid = some [nx, ny])
    (hfmt : q.format = "mat") {v : ℝ → (Fin 2 → ℝ) → Fin 2 → ℝ} {t₁ dx dy ζ ν : ℝ} {xs ys : ℕ → Fl}
    {P : Particles Fl} (survey : Survey64 env.fs q v t₁ nx ny xs ys dx dy ζ ν P) {N : ℕ}
    (hfit : q.ShapeFits N) {seed : NDArray Fl} (hseed : seed.shape = [4 * N, 2])
    (hp : mkParticles seed = .ok P) {L B M r W : ℝ} {X : ℕ → ℕ → Fin 4 → ℝ → Fin 2 → ℝ}
    {D : ℕ → ℕ → Matrix (Fin 2) (Fin 2) ℝ} {σ b : ℕ → ℕ → ℝ}
    (resolved : Resolved64 q v t₁ nx ny xs ys dx dy ζ ν L B M r W N seed X D σ b)
    (mem : ℕ → List ℕ → Fl) {st : Started Fl Val64}
    (hst : (startCommand cd float json texts per lower disk argv).2.2 = .ok st)
    {H : Host (Shared Fl) (List ℕ → Fl) (Option (List Val64) × List (Event Fl Val64))}
    (hH : st.program.host env = .ok H)
    {s₀ s : HostState (Shared Fl) (Option (List Val64) × List (Event Fl Val64))}
    {as : List (Action (Option (List Val64) × List (Event Fl Val64)))}
    (h₀ : H.init mem = .ok s₀) (h : HostState.Exec H mem s₀ as s) (hc : .crash ∉ as)
    (start stop : ℤ) :
    ∃ bs s' rs, HostState.Exec H mem s₀ (as ++ bs) s' ∧ s'.pool.phase = .returned rs ∧
      exitStatus (mainProgram start stop (.ok rs : Py _)).1 = 0 :=
  completes_of_runs cd float json texts per lower hl hlow hs hm hq hsens hname disk env hgrid hshape
    (W := .mat) (fun h => setup_mat lower (by rwa [hfmt] at h)) (fun x : Val64 => x) _
    (fun name Λ => mat_written (.inl rfl) hfit (fun x : Val64 => x) name Λ (centroid_rows2 hseed hp)) survey.seeds
    (fun i Λ => Good64 N q.snapshots q.timestep κ (D i) (σ i) (b i) Λ) mem
    (fun k i hi _ ht => survey.run he hex hacc hκ0 hκ hseed hp resolved hsens hi ht k (mem i))
    hst hH h₀ h hc start stop

/-- **C115** (plane, values).  When the executor returns, the folder `outputs/NAME` holds, for every
field, a file named after the snapshot at which the field starts.  The file says one record per
group: the rounded mean of its four seeds, and a value as in C87: a number near `ln σ / T`, or NaN if
the stretches of the group are nearly equal (`Good64`).  Here `σ` is the largest stretching of the
group by the exact flow, started at the time of that snapshot and followed for `n` steps of `h`, and
`T = (n - 1)|h|` is the period the code divides by (C37). -/
theorem C115_values_2d (hl : cd.Lawful)
    (hlow : ∀ s ∈ ["rk4", "euler", "ab2", "cubic", "linear", "nearest", "grid"], lower s = s)
    {argv : List Str} {l m : List (Opt × Str)} (hs : Says cd argv l)
    (hm : FromFile (fun p => (texts p).bind (configItems cd json)) argv l m) {q : Experiment Fl}
    (hq : Asks cd float texts per (m ++ l) q) (hsens : q.Sensible)
    (hname : q.name.head? ≠ some '/') (disk : Disk α) {env : Env Fl Val64} {lm : Libm} {κ : ℝ}
    (he : Env64 env lm) (hex : Target64 env.m) (hacc : lm.Accurate κ) (hκ0 : 0 ≤ κ) (hκ : κ ≤ 1 / 100)
    (hstem : ∀ v ∈ (inRunOrder q.timestep q.velocity).take q.fields, '/' ∉ (env.stem v).toList)
    (hn : (((inRunOrder q.timestep q.velocity).take q.fields).map env.stem).Nodup)
    (htakes : disk.Takes ("outputs/".toList ++ q.name) (q.fileNames env.stem))
    {nx ny : ℕ} (hgrid : q.interpolator = "grid") (hshape : q.flowGrid = some [nx, ny])
    (hfmt : q.format = "mat") {v : ℝ → (Fin 2 → ℝ) → Fin 2 → ℝ} {t₁ dx dy ζ ν : ℝ} {xs ys : ℕ → Fl}
    {P : Particles Fl} (survey : Survey64 env.fs q v t₁ nx ny xs ys dx dy ζ ν P) {N : ℕ}
    (hfit : q.ShapeFits N) {seed : NDArray Fl} (hseed : seed.shape = [4 * N, 2])
    (hp : mkParticles seed = .ok P) {L B M r W : ℝ} {X : ℕ → ℕ → Fin 4 → ℝ → Fin 2 → ℝ}
    {D : ℕ → ℕ → Matrix (Fin 2) (Fin 2) ℝ} {σ b : ℕ → ℕ → ℝ}
    (resolved : Resolved64 q v t₁ nx ny xs ys dx dy ζ ν L B M r W N seed X D σ b)
    (mem : ℕ → List ℕ → Fl) {st : Started Fl Val64}
    (hst : (startCommand cd float json texts per lower disk argv).2.2 = .ok st)
    {H : Host (Shared Fl) (List ℕ → Fl) (Option (List Val64) × List (Event Fl Val64))}
    (hH : st.program.host env = .ok H)
    {s₀ s : HostState (Shared Fl) (Option (List Val64) × List (Event Fl Val64))}
    {as : List (Action (Option (List Val64) × List (Event Fl Val64)))}
    {rs : List (Option (Option (List Val64) × List (Event Fl Val64)))}
    (h₀ : H.init mem = .ok s₀) (h : HostState.Exec H mem s₀ as s)
    (hr : s.pool.phase = .returned rs)
    (order : List ℕ) (ho : order.Perm (List.range q.fields)) (file : Saved Fl Val64 → α) :
    ∀ i < q.fields, ∃ first saved, ∃ Λ : ℕ → Val64, q.velocity[q.first i]? = some first ∧
      ((startCommand (F := Val64) cd float json texts per lower disk argv).1.writeFiles st.folder
        (st.files file rs order)).1.node (disk.target ("outputs/".toList ++ q.name) ++
          [("ftle_" ++ env.stem (String.ofList first) ++ ".mat").toList]) =
        some (.file (file saved)) ∧
      saved.Says (runRecords seed N 2 ((List.range N).map Λ)) ∧
      Good64 N q.snapshots q.timestep κ (D i) (σ i) (b i) Λ := by
  intro i hi
  obtain ⟨first, saved, Λ, g1, g2, g3, g4⟩ := saved_of_runs cd float json texts per lower hl hlow hs
    hm hq hsens hname disk env hstem hn htakes hgrid hshape (W := .mat)
    (fun h => setup_mat lower (by rwa [hfmt] at h)) (fun x : Val64 => x) _
    (fun name Λ => mat_written (.inl rfl) hfit (fun x : Val64 => x) name Λ (centroid_rows2 hseed hp)) survey.seeds
    (fun i Λ => Good64 N q.snapshots q.timestep κ (D i) (σ i) (b i) Λ) mem
    (fun k i hi _ ht => survey.run he hex hacc hκ0 hκ hseed hp resolved hsens hi ht k (mem i))
    hst hH h₀ h hr order ho file i hi
  have hext : q.extension = ".mat" := by simp [Experiment.extension, hfmt]
  rw [hext] at g2
  refine ⟨first, saved, Λ, g1, g2, ?_, g4⟩
  rw [← records64 (.inl rfl) hseed hp Λ]
  exact g3

/-- **C115** (space, completion). -/
theorem C115_completes_3d (hl : cd.Lawful)
    (hlow : ∀ s ∈ ["rk4", "euler", "ab2", "cubic", "linear", "nearest", "grid"], lower s = s)
    {argv : List Str} {l m : List (Opt × Str)} (hs : Says cd argv l)
    (hm : FromFile (fun p => (texts p).bind (configItems cd json)) argv l m) {q : Experiment Fl}
    (hq : Asks cd float texts per (m ++ l) q) (hsens : q.Sensible)
    (hname : q.name.head? ≠ some '/') (disk : Disk α) {env : Env Fl Val64} {lm : Libm} {la : Linalg} {κ μ : ℝ}
    (he : Env64x3 env lm la) (hex : Target64 env.m) (hacc : lm.Accurate κ) (hκ0 : 0 ≤ κ) (hκ : κ ≤ 1 / 100)
    (ha : la.Accurate μ) (hμ0 : 0 ≤ μ) (hμ : μ ≤ 1 / 10 ^ 6)
    {mx nz : ℕ} (hgrid : q.interpolator = "grid") (hshape : q.flowGrid = some [mx, mx, nz])
    (hfmt : q.format = "mat") {v : ℝ → (Fin 3 → ℝ) → Fin 3 → ℝ} {t₁ dx dy dz ζ ν : ℝ} {xs ys zs : ℕ → Fl}
    {P : Particles Fl} (survey : Survey64x3 env.fs q v t₁ mx nz xs ys zs dx dy dz ζ ν P) {N : ℕ}
    (hfit : q.ShapeFits N) {seed : NDArray Fl} (hseed : seed.shape = [6 * N, 3])
    (hp : mkParticles seed = .ok P) {L B M r W : ℝ} {X : ℕ → ℕ → Fin 6 → ℝ → Fin 3 → ℝ}
    {D : ℕ → ℕ → Matrix (Fin 3) (Fin 3) ℝ} {σ b : ℕ → ℕ → ℝ}
    (resolved : Resolved64x3 q v t₁ mx nz xs ys zs dx dy dz ζ ν L B M r W N seed X D σ b)
    (mem : ℕ → List ℕ → Fl) {st : Started Fl Val64}
    (hst : (startCommand cd float json texts per lower disk argv).2.2 = .ok st)
    {H : Host (Shared Fl) (List ℕ → Fl) (Option (List Val64) × List (Event Fl Val64))}
    (hH : st.program.host env = .ok H)
    {s₀ s : HostState (Shared Fl) (Option (List Val64) × List (Event Fl Val64))}
    {as : List (Action (Option (List Val64) × List (Event Fl Val64)))}
    (h₀ : H.init mem = .ok s₀) (h : HostState.Exec H mem s₀ as s) (hc : .crash ∉ as)
    (start stop : ℤ) :
    ∃ bs s' rs, HostState.Exec H mem s₀ (as ++ bs) s' ∧ s'.pool.phase = .returned rs ∧
      exitStatus (mainProgram start stop (.ok rs : Py _)).1 = 0 :=
  completes_of_runs cd float json texts per lower hl hlow hs hm hq hsens hname disk env hgrid hshape
    (W := .mat) (fun h => setup_mat lower (by rwa [hfmt] at h)) (fun x : Val64 => x) _
    (fun name Λ => mat_written (.inr rfl) hfit (fun x : Val64 => x) name Λ (centroid_rows3 hseed hp)) survey.seeds
    (fun i Λ => Good64x3 N q.snapshots q.timestep κ μ (σ i) (b i) Λ) mem
    (fun k i hi _ ht => survey.run he hex hacc hκ0 hκ ha hμ0 hμ hseed hp resolved hsens hi ht k (mem i))
    hst hH h₀ h hc start stop

/-- **C115** (space, values).  Groups of six seeds; grids with as many nodes in `x` as in `y` (C30);
values as in C113, never NaN. -/
theorem C115_values_3d (hl : cd.Lawful)
    (hlow : ∀ s ∈ ["rk4", "euler", "ab2", "cubic", "linear", "nearest", "grid"], lower s = s)
    {argv : List Str} {l m : List (Opt × Str)} (hs : Says cd argv l)
    (hm : FromFile (fun p => (texts p).bind (configItems cd json)) argv l m) {q : Experiment Fl}
    (hq : Asks cd float texts per (m ++ l) q) (hsens : q.Sensible)
    (hname : q.name.head? ≠ some '/') (disk : Disk α) {env : Env Fl Val64} {lm : Libm} {la : Linalg} {κ μ : ℝ}
    (he : Env64x3 env lm la) (hex : Target64 env.m) (hacc : lm.Accurate κ) (hκ0 : 0 ≤ κ) (hκ : κ ≤ 1 / 100)
    (ha : la.Accurate μ) (hμ0 : 0 ≤ μ) (hμ : μ ≤ 1 / 10 ^ 6)
    (hstem : ∀ v ∈ (inRunOrder q.timestep q.velocity).take q.fields, '/' ∉ (env.stem v).toList)
    (hn : (((inRunOrder q.timestep q.velocity).take q.fields).map env.stem).Nodup)
    (htakes : disk.Takes ("outputs/".toList ++ q.name) (q.fileNames env.stem))
    {mx nz : ℕ} (hgrid : q.interpolator = "grid") (hshape : q.flowGrid = some [mx, mx, nz])
    (hfmt : q.format = "mat") {v : ℝ → (Fin 3 → ℝ) → Fin 3 → ℝ} {t₁ dx dy dz ζ ν : ℝ} {xs ys zs : ℕ → Fl}
    {P : Particles Fl} (survey : Survey64x3 env.fs q v t₁ mx nz xs ys zs dx dy dz ζ ν P) {N : ℕ}
    (hfit : q.ShapeFits N) {seed : NDArray Fl} (hseed : seed.shape = [6 * N, 3])
    (hp : mkParticles seed = .ok P) {L B M r W : ℝ} {X : ℕ → ℕ → Fin 6 → ℝ → Fin 3 → ℝ}
    {D : ℕ → ℕ → Matrix (Fin 3) (Fin 3) ℝ} {σ b : ℕ → ℕ → ℝ}
    (resolved : Resolved64x3 q v t₁ mx nz xs ys zs dx dy dz ζ ν L B M r W N seed X D σ b)
    (mem : ℕ → List ℕ → Fl) {st : Started Fl Val64}
    (hst : (startCommand cd float json texts per lower disk argv).2.2 = .ok st)
    {H : Host (Shared Fl) (List ℕ → Fl) (Option (List Val64) × List (Event Fl Val64))}
    (hH : st.program.host env = .ok H)
    {s₀ s : HostState (Shared Fl) (Option (List Val64) × List (Event Fl Val64))}
    {as : List (Action (Option (List Val64) × List (Event Fl Val64)))}
    {rs : List (Option (Option (List Val64) × List (Event Fl Val64)))}
    (h₀ : H.init mem = .ok s₀) (h : HostState.Exec H mem s₀ as s)
    (hr : s.pool.phase = .returned rs)
    (order : List ℕ) (ho : order.Perm (List.range q.fields)) (file : Saved Fl Val64 → α) :
    ∀ i < q.fields, ∃ first saved, ∃ Λ : ℕ → Val64, q.velocity[q.first i]? = some first ∧
      ((startCommand (F := Val64) cd float json texts per lower disk argv).1.writeFiles st.folder
        (st.files file rs order)).1.node (disk.target ("outputs/".toList ++ q.name) ++
          [("ftle_" ++ env.stem (String.ofList first) ++ ".mat").toList]) =
        some (.file (file saved)) ∧
      saved.Says (runRecords seed N 3 ((List.range N).map Λ)) ∧
      Good64x3 N q.snapshots q.timestep κ μ (σ i) (b i) Λ := by
  intro i hi
  obtain ⟨first, saved, Λ, g1, g2, g3, g4⟩ := saved_of_runs cd float json texts per lower hl hlow hs
    hm hq hsens hname disk env hstem hn htakes hgrid hshape (W := .mat)
    (fun h => setup_mat lower (by rwa [hfmt] at h)) (fun x : Val64 => x) _
    (fun name Λ => mat_written (.inr rfl) hfit (fun x : Val64 => x) name Λ (centroid_rows3 hseed hp)) survey.seeds
    (fun i Λ => Good64x3 N q.snapshots q.timestep κ μ (σ i) (b i) Λ) mem
    (fun k i hi _ ht => survey.run he hex hacc hκ0 hκ ha hμ0 hμ hseed hp resolved hsens hi ht k (mem i))
    hst hH h₀ h hr order ho file i hi
  have hext : q.extension = ".mat" := by simp [Experiment.extension, hfmt]
  rw [hext] at g2
  refine ⟨first, saved, Λ, g1, g2, ?_, g4⟩
  rw [← records64 (.inr rfl) hseed hp Λ]
  exact g3

end

end Verif
