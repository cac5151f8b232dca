import Verif.Spec.Survey
import Verif.Props.Command
import Verif.Props.Writers
import Verif.Props.GridErrorExample
import Verif.Lemmas.Api

/-!
# C106: from the command line to accurate files
-/

namespace Verif

open Matrix Set

/-! ## The windows of a survey -/

theorem inRunOrder_get {K : Type} [Zero K] [LT K] [DecidableLT K] (q : Experiment K) (l : List (List Char)) {k : ℕ}
    (hk : k < l.length) (hl : l.length = q.velocity.length) :
    (inRunOrder q.timestep l)[k]? = l[q.first k]?.map String.ofList := by
  unfold inRunOrder Experiment.first
  split
  · rw [List.getElem?_map, List.getElem?_reverse hk, hl]
  · rw [List.getElem?_map]

theorem inRunOrder_mem {K : Type} [Zero K] [LT K] [DecidableLT K] {h : K} {l : List (List Char)} {s : String} (hs : s ∈ inRunOrder h l) :
    ∃ f ∈ l, s = String.ofList f := by
  unfold inRunOrder at hs
  obtain ⟨f, hf, rfl⟩ := List.mem_map.1 hs
  refine ⟨f, ?_, rfl⟩
  split at hf
  · exact List.mem_reverse.1 hf
  · exact hf

theorem inRunOrder_length {K : Type} [Zero K] [LT K] [DecidableLT K] (h : K) (l : List (List Char)) : (inRunOrder h l).length = l.length := by
  unfold inRunOrder
  split <;> simp

theorem inRunOrder_nodup {K : Type} [Zero K] [LT K] [DecidableLT K] {h : K} {l : List (List Char)} (hl : l.Nodup) : (inRunOrder h l).Nodup := by
  unfold inRunOrder
  refine List.Nodup.map (fun a b hab => by simpa using congrArg String.toList hab) ?_
  split
  · exact List.nodup_reverse.2 hl
  · exact hl

/-- The time of the snapshots of a window. -/
theorem startTime_step (q : Experiment ℝ) (start : ℝ) {i j : ℕ} (h : i + j < q.velocity.length) :
    q.startTime start i + j * q.timestep = start + q.first (i + j) * |q.timestep| := by
  unfold Experiment.startTime Experiment.first
  split
  · next hn =>
    rw [abs_of_neg hn]
    have e : q.velocity.length - 1 - i = q.velocity.length - 1 - (i + j) + j := by omega
    rw [e]
    push_cast
    ring
  · next hn =>
    rw [abs_of_nonneg (not_lt.1 hn)]
    push_cast
    ring

section
variable {K : Type} [Zero K] [LT K] [DecidableLT K] {q : Experiment K} {stem : String → String} {i : ℕ}
  {t : FileSource K}

/-- With two or more different coordinate files the coordinates are read in every step. -/
theorem window_fresh (hc : 2 ≤ q.coordinate.length) (hnd : q.coordinate.Nodup)
    (hp : 2 ≤ q.snapshots)
    (ht : IsWindow stem (inRunOrder q.timestep q.velocity) (inRunOrder q.timestep q.coordinate)
      (inRunOrder q.timestep q.particle) q.timestep q.snapshots i t) :
    t.reuseCoordinates = false := by
  by_contra hr
  have hr : t.reuseCoordinates = true := by simpa using hr
  have all := ht.reuse.1 hr
  have hlen := inRunOrder_length q.timestep q.coordinate
  have c0 := ht.coordinates 0 (by omega)
  have c1 := ht.coordinates 1 (by omega)
  have p0 : (i + 0) % (inRunOrder q.timestep q.coordinate).length <
      (inRunOrder q.timestep q.coordinate).length := Nat.mod_lt _ (by omega)
  have p1 : (i + 1) % (inRunOrder q.timestep q.coordinate).length <
      (inRunOrder q.timestep q.coordinate).length := Nat.mod_lt _ (by omega)
  rw [List.getElem?_eq_getElem p0] at c0
  rw [List.getElem?_eq_getElem p1] at c1
  have := all _ (List.mem_of_getElem? c0) _ (List.mem_of_getElem? c1)
  have := (inRunOrder_nodup (h := q.timestep) hnd).getElem_inj_iff.1 this
  rw [hlen] at this
  generalize q.coordinate.length = n at this hc
  have h1 := Nat.div_add_mod i n
  have h2 := Nat.div_add_mod (i + 1) n
  have h3 : i % n = (i + 1) % n := this
  rw [← h3] at h2
  have h4 : n * ((i + 1) / n) = n * (i / n) + 1 := by omega
  have h5 : n ∣ 1 := by
    have : n ∣ n * (i / n) + 1 := h4 ▸ Dvd.intro _ rfl
    exact (Nat.dvd_add_right (Dvd.intro _ rfl)).1 this
  have := Nat.le_of_dvd one_pos h5
  omega

/-- The snapshot files of a window. -/
theorem window_velocity (hi : i < q.fields) (he : q.snapshots ≤ q.velocity.length)
    (ht : IsWindow stem (inRunOrder q.timestep q.velocity) (inRunOrder q.timestep q.coordinate)
      (inRunOrder q.timestep q.particle) q.timestep q.snapshots i t) {j : ℕ}
    (hj : j < q.snapshots) :
    ∃ f, q.velocity[q.first (i + j)]? = some f ∧ t.snapshotFiles[j]? = some (String.ofList f) := by
  unfold Experiment.fields at hi
  have hlt : i + j < q.velocity.length := by omega
  have h1 := ht.snapshots j hj
  rw [inRunOrder_get q _ hlt rfl] at h1
  have h2 : q.first (i + j) < q.velocity.length := by
    unfold Experiment.first
    split <;> omega
  rw [List.getElem?_eq_getElem h2] at h1 ⊢
  exact ⟨_, rfl, h1⟩

theorem window_coordinate (hc : 2 ≤ q.coordinate.length)
    (ht : IsWindow stem (inRunOrder q.timestep q.velocity) (inRunOrder q.timestep q.coordinate)
      (inRunOrder q.timestep q.particle) q.timestep q.snapshots i t) {j : ℕ}
    (hj : j < q.snapshots) :
    ∃ f ∈ q.coordinate, t.coordinateFiles[j]? = some (String.ofList f) := by
  have h1 := ht.coordinates j hj
  have hlen := inRunOrder_length q.timestep q.coordinate
  have p0 : (i + j) % (inRunOrder q.timestep q.coordinate).length <
      (inRunOrder q.timestep q.coordinate).length := Nat.mod_lt _ (by omega)
  rw [List.getElem?_eq_getElem p0] at h1
  obtain ⟨f, hf, e⟩ := inRunOrder_mem (List.getElem_mem p0)
  exact ⟨f, hf, by rw [h1, e]⟩

theorem window_particle (hne : q.particle ≠ [])
    (ht : IsWindow stem (inRunOrder q.timestep q.velocity) (inRunOrder q.timestep q.coordinate)
      (inRunOrder q.timestep q.particle) q.timestep q.snapshots i t) :
    ∃ f ∈ q.particle, t.particleFile = String.ofList f := by
  have h1 := ht.particle
  have hlen := inRunOrder_length q.timestep q.particle
  have hpos : 0 < q.particle.length := List.length_pos_of_ne_nil hne
  have p0 : i % (inRunOrder q.timestep q.particle).length <
      (inRunOrder q.timestep q.particle).length := Nat.mod_lt _ (by omega)
  rw [List.getElem?_eq_getElem p0] at h1
  obtain ⟨f, hf, e⟩ := inRunOrder_mem (List.getElem_mem p0)
  exact ⟨f, hf, by rw [Option.some.inj h1, e]⟩

end

section
variable {q : Experiment ℝ} {stem : String → String} {i : ℕ} {t : FileSource ℝ}

/-- The window of a field of a plane survey samples the flow from the time of its start. -/
theorem Survey2.window {fs : MatFS ℝ} {v : ℝ → (Fin 2 → ℝ) → Fin 2 → ℝ} {start : ℝ} {nx ny : ℕ}
    {x0 dx y0 dy : ℝ} {P : Particles ℝ} (sv : Survey2 fs q v start nx ny x0 dx y0 dy P)
    (hp : 2 ≤ q.snapshots) (hi : i < q.fields) (he : q.snapshots ≤ q.velocity.length)
    (ht : IsWindow stem (inRunOrder q.timestep q.velocity) (inRunOrder q.timestep q.coordinate)
      (inRunOrder q.timestep q.particle) q.timestep q.snapshots i t) :
    Samples2 fs t v (q.startTime start i) nx ny x0 dx y0 dy where
  fresh := window_fresh sv.several sv.distinct hp ht
  hnx := sv.hnx
  hny := sv.hny
  lnx := sv.lnx
  lny := sv.lny
  hdx := sv.hdx
  hdy := sv.hdy
  data := by
    intro j hj
    rw [ht.snapshots_length] at hj
    obtain ⟨f, f1, f2⟩ := window_velocity hi he ht hj
    obtain ⟨c, c1, c2⟩ := window_coordinate sv.several ht hj
    obtain ⟨V, v1, v2, v3⟩ := sv.samples _ f f1
    obtain ⟨C, d1, d2, d3⟩ := sv.nodes c c1
    refine ⟨V, C, ⟨⟨_, f2, v1⟩, _, c2, d1⟩, v2, d2, d3, ?_⟩
    intro p hp e
    have hpos : 0 < nx := by have := sv.hnx; omega
    have ha : p % nx < nx := Nat.mod_lt _ hpos
    have hb : p / nx < ny := Nat.div_lt_of_lt_mul hp
    have hpe : p % nx + nx * (p / nx) = p := Nat.mod_add_div p nx
    have h1 := v3 _ ha _ hb e
    obtain ⟨h2, h3⟩ := d3 _ ha _ hb
    rw [hpe] at h1 h2 h3
    rw [h1, h2, h3, ht.timestep, startTime_step]
    unfold Experiment.fields at hi
    omega

/-- The same in space. -/
theorem Survey3.window {fs : MatFS ℝ} {v : ℝ → (Fin 3 → ℝ) → Fin 3 → ℝ} {start : ℝ} {m nz : ℕ}
    {x0 dx y0 dy z0 dz : ℝ} {P : Particles ℝ} (sv : Survey3 fs q v start m nz x0 dx y0 dy z0 dz P)
    (hp : 2 ≤ q.snapshots) (hi : i < q.fields) (he : q.snapshots ≤ q.velocity.length)
    (ht : IsWindow stem (inRunOrder q.timestep q.velocity) (inRunOrder q.timestep q.coordinate)
      (inRunOrder q.timestep q.particle) q.timestep q.snapshots i t) :
    Samples3 fs t v (q.startTime start i) m nz x0 dx y0 dy z0 dz where
  fresh := window_fresh sv.several sv.distinct hp ht
  hm := sv.hm
  hnz := sv.hnz
  lm := sv.lm
  lnz := sv.lnz
  lmz := sv.lmz
  hdx := sv.hdx
  hdy := sv.hdy
  hdz := sv.hdz
  data := by
    intro j hj
    rw [ht.snapshots_length] at hj
    obtain ⟨f, f1, f2⟩ := window_velocity hi he ht hj
    obtain ⟨c, c1, c2⟩ := window_coordinate sv.several ht hj
    obtain ⟨V, v1, v2, v3⟩ := sv.samples _ f f1
    obtain ⟨C, d1, d2, d3⟩ := sv.nodes c c1
    refine ⟨V, C, ⟨⟨_, f2, v1⟩, _, c2, d1⟩, v2, d2, d3, ?_⟩
    intro p hp e
    have hm := sv.hm
    have hz := sv.hnz
    have hc : p % nz < nz := Nat.mod_lt _ (by omega)
    have ha : p / nz % m < m := Nat.mod_lt _ (by omega)
    have hb : p / nz / m < m := by
      refine Nat.div_lt_of_lt_mul (Nat.div_lt_of_lt_mul ?_)
      rw [Nat.mul_comm]
      exact hp
    have hpe : (p / nz / m * m + p / nz % m) * nz + p % nz = p := by
      rw [Nat.div_add_mod', Nat.div_add_mod']
    have h1 := v3 _ ha _ hb _ hc e
    obtain ⟨h2, h3, h4⟩ := d3 _ ha _ hb _ hc
    rw [hpe] at h1 h2 h3 h4
    rw [h1, h2, h3, h4, ht.timestep, startTime_step]
    unfold Experiment.fields at hi
    omega

/-- The run on a window of a plane survey. -/
theorem Survey2.run {env : Env ℝ FVal} (he : RealEnv env) (hm : ExactTarget env.m)
    {v : ℝ → (Fin 2 → ℝ) → Fin 2 → ℝ} {start : ℝ} {nx ny : ℕ}
    {x0 dx y0 dy : ℝ} {P : Particles ℝ} (sv : Survey2 env.fs q v start nx ny x0 dx y0 dy P)
    {N : ℕ} {seed : NDArray ℝ} (hs : seed.shape = [4 * N, 2]) (hp : mkParticles seed = .ok P)
    {L B M r : ℝ} {X : ℕ → ℕ → Fin 4 → ℝ → Fin 2 → ℝ} {σ : ℕ → ℕ → ℝ}
    (rs : Resolved2 q v start nx ny x0 dx y0 dy L B M r N (groupOf seed 4 N 2) X σ)
    (hq : q.Sensible) (hi : i < q.fields)
    (ht : IsWindow stem (inRunOrder q.timestep q.velocity) (inRunOrder q.timestep q.coordinate)
      (inRunOrder q.timestep q.particle) q.timestep q.snapshots i t) (k : Kind) (mem : List ℕ → ℝ) :
    ∃ Λ : ℕ → ℝ, (aloneRun { env with junk := mem } none (.file t)
        (.highPerf (HighPerf.fresh [nx, ny])) k).result =
          .ok (some ((List.range N).map fun g => .fin (Λ g))) ∧
      ∀ g < N, Near (Λ g) ((q.snapshots - 1) * |q.timestep|) (σ i g)
        (stretchError2 (L * max dx dy) L B M q.timestep q.snapshots (groupOf seed 4 N 2 g)) := by
  obtain ⟨f, hf, hfe⟩ := window_particle hq.particle_ne ht
  choose! D hD using rs.stretching i hi
  have hlt : ∀ j < q.snapshots, i + j < q.velocity.length := by
    intro j hj
    have := hq.enough
    unfold Experiment.fields at hi
    omega
  have hfl : ∀ j < q.snapshots, q.first (i + j) < q.velocity.length := by
    intro j hj
    have := hlt j hj
    unfold Experiment.first
    split <;> omega
  exact C84_gridded_2d (env := { env with junk := mem }) ⟨he.abs, he.f2, he.f3⟩ hm true k
    (sv.window rs.two_le hi hq.enough ht) ht.snapshots_length rs.two_le ht.timestep rs.step rs.small
    hs hp (by rw [hfe]; exact sv.seeds f hf) (X i) (rs.trajectories i hi)
    (fun j hj => by rw [startTime_step q start (hlt j hj)]; exact rs.lipschitz _ (hfl j hj))
    (rs.inside i hi) D (fun g hg => (hD g hg).1) (σ i) _ (fun g => rfl)
    (fun g hg => (hD g hg).2)

/-- The run on a window of a survey in space. -/
theorem Survey3.run {env : Env ℝ FVal} (he : RealEnv env) (hm : ExactTarget env.m)
    {v : ℝ → (Fin 3 → ℝ) → Fin 3 → ℝ} {start : ℝ} {m nz : ℕ}
    {x0 dx y0 dy z0 dz : ℝ} {P : Particles ℝ}
    (sv : Survey3 env.fs q v start m nz x0 dx y0 dy z0 dz P)
    {N : ℕ} {seed : NDArray ℝ} (hs : seed.shape = [6 * N, 3]) (hp : mkParticles seed = .ok P)
    {L B M r : ℝ} {X : ℕ → ℕ → Fin 6 → ℝ → Fin 3 → ℝ} {σ : ℕ → ℕ → ℝ}
    (rs : Resolved3 q v start m nz x0 dx y0 dy z0 dz L B M r N (groupOf seed 6 N 3) X σ)
    (hq : q.Sensible) (hi : i < q.fields)
    (ht : IsWindow stem (inRunOrder q.timestep q.velocity) (inRunOrder q.timestep q.coordinate)
      (inRunOrder q.timestep q.particle) q.timestep q.snapshots i t) (k : Kind) (mem : List ℕ → ℝ) :
    ∃ Λ : ℕ → ℝ, (aloneRun { env with junk := mem } none (.file t)
        (.highPerf (HighPerf.fresh [m, m, nz])) k).result =
          .ok (some ((List.range N).map fun g => .fin (Λ g))) ∧
      ∀ g < N, Near (Λ g) ((q.snapshots - 1) * |q.timestep|) (σ i g)
        (stretchError3 (L * max (max dx dy) dz) L B M q.timestep q.snapshots
          (groupOf seed 6 N 3 g)) := by
  obtain ⟨f, hf, hfe⟩ := window_particle hq.particle_ne ht
  choose! D hD using rs.stretching i hi
  have hlt : ∀ j < q.snapshots, i + j < q.velocity.length := by
    intro j hj
    have := hq.enough
    unfold Experiment.fields at hi
    omega
  have hfl : ∀ j < q.snapshots, q.first (i + j) < q.velocity.length := by
    intro j hj
    have := hlt j hj
    unfold Experiment.first
    split <;> omega
  exact C84_gridded_3d (env := { env with junk := mem }) ⟨he.abs, he.f2, he.f3⟩ hm true k
    (sv.window rs.two_le hi hq.enough ht) ht.snapshots_length rs.two_le ht.timestep rs.step rs.small
    hs hp (by rw [hfe]; exact sv.seeds f hf) (X i) (rs.trajectories i hi)
    (fun j hj => by rw [startTime_step q start (hlt j hj)]; exact rs.lipschitz _ (hfl j hj))
    (rs.inside i hi) D (fun g hg => (hD g hg).1) (σ i) _ (fun g => rfl)
    (fun g hg => (hD g hg).2)

end

/-! ## From the runs to the files -/

section
variable {K F V : Type} [Zero K] [Inhabited F] (lower : String → String)

/-- The fast interpolator is made for the shape of the grid. -/
theorem setup_grid
    (hlow : ∀ s ∈ ["rk4", "euler", "ab2", "cubic", "linear", "nearest", "grid"], lower s = s)
    {a c : String} {shape : List ℕ} {I : AnyInterp K} {k : Kind} {w : WriterKind}
    (h : setup lower ⟨some a, some "grid", some c⟩ (some shape) = .ok (I, k, w)) :
    I = .highPerf (HighPerf.fresh shape) := by
  have hg : lower "grid" = "grid" := hlow _ (by simp)
  unfold setup at h
  simp only [cliInterpolator, createInterpolator, hg] at h
  simp only [ne_eq, not_true_eq_false, and_false, if_false, String.reduceEq] at h
  split at h
  · cases h
  · split at h
    · cases h
    · cases h; rfl

theorem setup_vtk {a b : String} {g : Option (List ℕ)} {I : AnyInterp K} {k : Kind}
    {w : WriterKind} (h : setup lower ⟨some a, some b, some "vtk"⟩ g = .ok (I, k, w)) :
    w = .vtk := by
  unfold setup at h
  split at h
  · cases h
  · split at h
    · cases h
    · simp only [cliWriter_accepted (.inr rfl)] at h
      cases h; rfl

theorem setup_mat {a b : String} {g : Option (List ℕ)} {I : AnyInterp K} {k : Kind}
    {w : WriterKind} (h : setup lower ⟨some a, some b, some "mat"⟩ g = .ok (I, k, w)) :
    w = .mat := by
  unfold setup at h
  split at h
  · cases h
  · split at h
    · cases h
    · simp only [cliWriter_accepted (.inl rfl), if_true] at h
      cases h; rfl

/-- A field of the right length is written. -/
theorem mat_written {q : Experiment K} {N d : ℕ} (hd : d = 2 ∨ d = 3) (hfit : q.ShapeFits N)
    (value : V → F) (name : String) (Λ : ℕ → V) {c : NDArray K} (hc : c.shape = [N, d]) :
    ∃ s, ((Writer.fresh .mat q.particlesGrid).write name
        (arrayOfList ((List.range N).map fun g => value (Λ g))) c).2 = .ok s ∧
      s.Says ((List.range N).map fun g => (value (Λ g), (List.range d).map fun e => c.get [g, e])) := by
  have hsh : (arrayOfList ((List.range N).map fun g => value (Λ g))).shape = [N] := by
    simp [arrayOfList]
  have hrec : groupRecords N d (arrayOfList ((List.range N).map fun g => value (Λ g))) c =
      (List.range N).map fun g => (value (Λ g), (List.range d).map fun e => c.get [g, e]) := by
    unfold groupRecords groupRecord
    refine List.map_congr_left fun g hg => ?_
    have hg := List.mem_range.1 hg
    simp [arrayOfList, List.getD, hg]
  rcases hfit with h | ⟨g, sh, h, hg, hN⟩
  · obtain ⟨s, h1, -, h2⟩ := C54_flat none (.inl rfl) name _ c N d hd hsh hc
    rw [hrec] at h2
    exact ⟨s, by rw [h]; exact h1, h2⟩
  · obtain ⟨s, h1, h2, -⟩ := C54_structured hg name _ c N d hd hsh hc hN
    rw [hrec] at h2
    exact ⟨s, by rw [h]; exact h1, h2⟩

end

section
variable {K F V α : Type} [Zero K] [One K] [Add K] [Sub K] [Mul K] [Div K] [NatCast K] [IntCast K]
  [Min K] [Max K] [NumLits K] [DecidableEq K] [LT K] [DecidableLT K] [Inhabited F]
  (cd : CharData) (float : Str → Option K) (json : Str → List Str)
  (texts : Str → Option Str) (per : K → K → Py ℤ) (lower : String → String)

/-- If the run on every window succeeds, so does the program: any interpolator. -/
theorem completes_with (hl : cd.Lawful)
    (hlow : ∀ s ∈ ["rk4", "euler", "ab2", "cubic", "linear", "nearest", "grid"], lower s = s)
    {argv : List Str} {l m : List (Opt × Str)} (hs : Says cd argv l)
    (hm : FromFile (fun p => (texts p).bind (configItems cd json)) argv l m) {q : Experiment K}
    (hq : Asks cd float texts per (m ++ l) q) (hsens : q.Sensible)
    (hname : q.name.head? ≠ some '/') (disk : Disk α) (env : Env K F) {I₀ : AnyInterp K}
    (hI₀ : ∀ {a c I k w}, setup (K := K) lower ⟨some a, some q.interpolator, some c⟩ q.flowGrid =
      .ok (I, k, w) → I = I₀) {W : WriterKind}
    (hW : ∀ {a b g I k w}, setup (K := K) lower ⟨some a, some b, some q.format⟩ g = .ok (I, k, w) →
      w = W)
    {N : ℕ} {P : Particles K} (value : V → F) (content : (ℕ → V) → List (F × List K))
    (hwrite : ∀ name Λ, ∃ s, ((Writer.fresh W q.particlesGrid).write name
      (arrayOfList ((List.range N).map fun g => value (Λ g))) P.initialCentroid).2 = .ok s ∧
        s.Says (content Λ))
    (hseed : ∀ f ∈ q.particle, readSeedParticles env.fs (String.ofList f) = .ok P)
    (A : ℕ → (ℕ → V) → Prop) (mem : ℕ → List ℕ → K)
    (hrun : ∀ k, ∀ i < q.fields, ∀ t, IsWindow env.stem (inRunOrder q.timestep q.velocity)
        (inRunOrder q.timestep q.coordinate) (inRunOrder q.timestep q.particle) q.timestep
        q.snapshots i t →
      ∃ Λ : ℕ → V, (aloneRun { env with junk := mem i } none (.file t)
        I₀ k).result =
          .ok (some ((List.range N).map fun g => value (Λ g))) ∧ A i Λ)
    {st : Started K F}
    (hst : (startCommand cd float json texts per lower disk argv).2.2 = .ok st)
    {H : Host (Shared K) (List ℕ → K) (Option (List F) × List (Event K F))}
    (hH : st.program.host env = .ok H)
    {s₀ s : HostState (Shared K) (Option (List F) × List (Event K F))}
    {as : List (Action (Option (List F) × List (Event K F)))}
    (h₀ : H.init mem = .ok s₀) (h : HostState.Exec H mem s₀ as s) (hc : .crash ∉ as)
    (start stop : ℤ) :
    ∃ bs s' rs, HostState.Exec H mem s₀ (as ++ bs) s' ∧ s'.pool.phase = .returned rs ∧
      exitStatus (mainProgram start stop (.ok rs : Py _)).1 = 0 := by
  refine C105_completes cd float json texts per lower hl hlow hs hm hq hsens hname disk env hst hH
    mem ?_ h₀ h hc start stop
  intro I k w hset i hi t ht
  obtain rfl := hW hset
  obtain rfl := hI₀ hset
  obtain ⟨Λ, h1, -⟩ := hrun k i hi t ht
  obtain ⟨p, id, hp, -, hw⟩ := run_with_writer h1
  obtain ⟨f, hf, hfe⟩ := window_particle hsens.particle_ne ht
  have hp : readSeedParticles env.fs t.particleFile = .ok p := hp
  rw [hfe, hseed f hf] at hp
  cases hp
  obtain ⟨sv, hsv, -⟩ := hwrite ("ftle_" ++ id) Λ
  refine ⟨none, ?_⟩
  unfold aloneRun
  rw [hw]
  simp only [Writer.asWriteFn, hsv]

/-- If the run on every window succeeds, so does the program. -/
theorem completes_of_runs (hl : cd.Lawful)
    (hlow : ∀ s ∈ ["rk4", "euler", "ab2", "cubic", "linear", "nearest", "grid"], lower s = s)
    {argv : List Str} {l m : List (Opt × Str)} (hs : Says cd argv l)
    (hm : FromFile (fun p => (texts p).bind (configItems cd json)) argv l m) {q : Experiment K}
    (hq : Asks cd float texts per (m ++ l) q) (hsens : q.Sensible)
    (hname : q.name.head? ≠ some '/') (disk : Disk α) (env : Env K F) {shape : List ℕ}
    (hgrid : q.interpolator = "grid") (hshape : q.flowGrid = some shape) {W : WriterKind}
    (hW : ∀ {a b g I k w}, setup (K := K) lower ⟨some a, some b, some q.format⟩ g = .ok (I, k, w) →
      w = W)
    {N : ℕ} {P : Particles K} (value : V → F) (content : (ℕ → V) → List (F × List K))
    (hwrite : ∀ name Λ, ∃ s, ((Writer.fresh W q.particlesGrid).write name
      (arrayOfList ((List.range N).map fun g => value (Λ g))) P.initialCentroid).2 = .ok s ∧
        s.Says (content Λ))
    (hseed : ∀ f ∈ q.particle, readSeedParticles env.fs (String.ofList f) = .ok P)
    (A : ℕ → (ℕ → V) → Prop) (mem : ℕ → List ℕ → K)
    (hrun : ∀ k, ∀ i < q.fields, ∀ t, IsWindow env.stem (inRunOrder q.timestep q.velocity)
        (inRunOrder q.timestep q.coordinate) (inRunOrder q.timestep q.particle) q.timestep
        q.snapshots i t →
      ∃ Λ : ℕ → V, (aloneRun { env with junk := mem i } none (.file t)
        (.highPerf (HighPerf.fresh shape)) k).result =
          .ok (some ((List.range N).map fun g => value (Λ g))) ∧ A i Λ)
    {st : Started K F}
    (hst : (startCommand cd float json texts per lower disk argv).2.2 = .ok st)
    {H : Host (Shared K) (List ℕ → K) (Option (List F) × List (Event K F))}
    (hH : st.program.host env = .ok H)
    {s₀ s : HostState (Shared K) (Option (List F) × List (Event K F))}
    {as : List (Action (Option (List F) × List (Event K F)))}
    (h₀ : H.init mem = .ok s₀) (h : HostState.Exec H mem s₀ as s) (hc : .crash ∉ as)
    (start stop : ℤ) :
    ∃ bs s' rs, HostState.Exec H mem s₀ (as ++ bs) s' ∧ s'.pool.phase = .returned rs ∧
      exitStatus (mainProgram start stop (.ok rs : Py _)).1 = 0 :=
  completes_with cd float json texts per lower hl hlow hs hm hq hsens hname disk env
    (fun h => setup_grid lower hlow (by rwa [hgrid, hshape] at h)) hW value content hwrite hseed A mem
    hrun hst hH h₀ h hc start stop

/-- If the run on every window succeeds with values that have a property, the files hold values that
have it: any interpolator. -/
theorem saved_with (hl : cd.Lawful)
    (hlow : ∀ s ∈ ["rk4", "euler", "ab2", "cubic", "linear", "nearest", "grid"], lower s = s)
    {argv : List Str} {l m : List (Opt × Str)} (hs : Says cd argv l)
    (hm : FromFile (fun p => (texts p).bind (configItems cd json)) argv l m) {q : Experiment K}
    (hq : Asks cd float texts per (m ++ l) q) (hsens : q.Sensible)
    (hname : q.name.head? ≠ some '/') (disk : Disk α) (env : Env K F)
    (hstem : ∀ v ∈ (inRunOrder q.timestep q.velocity).take q.fields, '/' ∉ (env.stem v).toList)
    (hn : (((inRunOrder q.timestep q.velocity).take q.fields).map env.stem).Nodup)
    (htakes : disk.Takes ("outputs/".toList ++ q.name) (q.fileNames env.stem)) {I₀ : AnyInterp K}
    (hI₀ : ∀ {a c I k w}, setup (K := K) lower ⟨some a, some q.interpolator, some c⟩ q.flowGrid =
      .ok (I, k, w) → I = I₀) {W : WriterKind}
    (hW : ∀ {a b g I k w}, setup (K := K) lower ⟨some a, some b, some q.format⟩ g = .ok (I, k, w) →
      w = W)
    {N : ℕ} {P : Particles K} (value : V → F) (content : (ℕ → V) → List (F × List K))
    (hwrite : ∀ name Λ, ∃ s, ((Writer.fresh W q.particlesGrid).write name
      (arrayOfList ((List.range N).map fun g => value (Λ g))) P.initialCentroid).2 = .ok s ∧
        s.Says (content Λ))
    (hseed : ∀ f ∈ q.particle, readSeedParticles env.fs (String.ofList f) = .ok P)
    (A : ℕ → (ℕ → V) → Prop) (mem : ℕ → List ℕ → K)
    (hrun : ∀ k, ∀ i < q.fields, ∀ t, IsWindow env.stem (inRunOrder q.timestep q.velocity)
        (inRunOrder q.timestep q.coordinate) (inRunOrder q.timestep q.particle) q.timestep
        q.snapshots i t →
      ∃ Λ : ℕ → V, (aloneRun { env with junk := mem i } none (.file t)
        I₀ k).result =
          .ok (some ((List.range N).map fun g => value (Λ g))) ∧ A i Λ)
    {st : Started K F}
    (hst : (startCommand cd float json texts per lower disk argv).2.2 = .ok st)
    {H : Host (Shared K) (List ℕ → K) (Option (List F) × List (Event K F))}
    (hH : st.program.host env = .ok H)
    {s₀ s : HostState (Shared K) (Option (List F) × List (Event K F))}
    {as : List (Action (Option (List F) × List (Event K F)))}
    {rs : List (Option (Option (List F) × List (Event K F)))}
    (h₀ : H.init mem = .ok s₀) (h : HostState.Exec H mem s₀ as s)
    (hr : s.pool.phase = .returned rs)
    (order : List ℕ) (ho : order.Perm (List.range q.fields)) (file : Saved K F → α) :
    ∀ i < q.fields, ∃ first saved, ∃ Λ : ℕ → V, q.velocity[q.first i]? = some first ∧
      ((startCommand (F := F) cd float json texts per lower disk argv).1.writeFiles st.folder
        (st.files file rs order)).1.node (disk.target ("outputs/".toList ++ q.name) ++
          [("ftle_" ++ env.stem (String.ofList first) ++ q.extension).toList]) =
        some (.file (file saved)) ∧
      saved.Says (content Λ) ∧
      A i Λ := by
  obtain ⟨-, -, I, k, w, hset, hall, -⟩ := C105_saved cd float json texts per lower hl hlow hs hm hq
    hsens hname disk env hstem hn htakes hst hH mem h₀ h hr order ho file
  have hset' := hset
  obtain rfl := hW hset
  obtain rfl := hI₀ hset'
  intro i hi
  obtain ⟨t, ps, first, field, saved, g1, g2, g3, g4, g5, g6⟩ := hall i hi
  obtain ⟨Λ, h1, h2⟩ := hrun k i hi t g1
  rw [g4] at h1
  obtain rfl : field = _ := Option.some.inj (Except.ok.inj h1)
  obtain ⟨f, hf, hfe⟩ := window_particle hsens.particle_ne g1
  rw [hfe, hseed f hf] at g2
  obtain rfl : P = ps := Except.ok.inj g2
  obtain ⟨sv, hsv, hsays⟩ := hwrite ("ftle_" ++ env.stem first) Λ
  rw [hsv] at g5
  obtain rfl : sv = saved := Except.ok.inj g5
  have hlt : i < q.velocity.length := by
    have := hsens.enough
    have := hsens.one_le
    unfold Experiment.fields at hi
    omega
  rw [inRunOrder_get q _ hlt rfl] at g3
  obtain ⟨fst, hfst, rfl⟩ := Option.map_eq_some_iff.1 g3
  exact ⟨fst, sv, Λ, hfst, g6, hsays, h2⟩

/-- If the run on every window succeeds with values that have a property, the files hold values that
have it. -/
theorem saved_of_runs (hl : cd.Lawful)
    (hlow : ∀ s ∈ ["rk4", "euler", "ab2", "cubic", "linear", "nearest", "grid"], lower s = s)
    {argv : List Str} {l m : List (Opt × Str)} (hs : Says cd argv l)
    (hm : FromFile (fun p => (texts p).bind (configItems cd json)) argv l m) {q : Experiment K}
    (hq : Asks cd float texts per (m ++ l) q) (hsens : q.Sensible)
    (hname : q.name.head? ≠ some '/') (disk : Disk α) (env : Env K F)
    (hstem : ∀ v ∈ (inRunOrder q.timestep q.velocity).take q.fields, '/' ∉ (env.stem v).toList)
    (hn : (((inRunOrder q.timestep q.velocity).take q.fields).map env.stem).Nodup)
    (htakes : disk.Takes ("outputs/".toList ++ q.name) (q.fileNames env.stem)) {shape : List ℕ}
    (hgrid : q.interpolator = "grid") (hshape : q.flowGrid = some shape) {W : WriterKind}
    (hW : ∀ {a b g I k w}, setup (K := K) lower ⟨some a, some b, some q.format⟩ g = .ok (I, k, w) →
      w = W)
    {N : ℕ} {P : Particles K} (value : V → F) (content : (ℕ → V) → List (F × List K))
    (hwrite : ∀ name Λ, ∃ s, ((Writer.fresh W q.particlesGrid).write name
      (arrayOfList ((List.range N).map fun g => value (Λ g))) P.initialCentroid).2 = .ok s ∧
        s.Says (content Λ))
    (hseed : ∀ f ∈ q.particle, readSeedParticles env.fs (String.ofList f) = .ok P)
    (A : ℕ → (ℕ → V) → Prop) (mem : ℕ → List ℕ → K)
    (hrun : ∀ k, ∀ i < q.fields, ∀ t, IsWindow env.stem (inRunOrder q.timestep q.velocity)
        (inRunOrder q.timestep q.coordinate) (inRunOrder q.timestep q.particle) q.timestep
        q.snapshots i t →
      ∃ Λ : ℕ → V, (aloneRun { env with junk := mem i } none (.file t)
        (.highPerf (HighPerf.fresh shape)) k).result =
          .ok (some ((List.range N).map fun g => value (Λ g))) ∧ A i Λ)
    {st : Started K F}
    (hst : (startCommand cd float json texts per lower disk argv).2.2 = .ok st)
    {H : Host (Shared K) (List ℕ → K) (Option (List F) × List (Event K F))}
    (hH : st.program.host env = .ok H)
    {s₀ s : HostState (Shared K) (Option (List F) × List (Event K F))}
    {as : List (Action (Option (List F) × List (Event K F)))}
    {rs : List (Option (Option (List F) × List (Event K F)))}
    (h₀ : H.init mem = .ok s₀) (h : HostState.Exec H mem s₀ as s)
    (hr : s.pool.phase = .returned rs)
    (order : List ℕ) (ho : order.Perm (List.range q.fields)) (file : Saved K F → α) :
    ∀ i < q.fields, ∃ first saved, ∃ Λ : ℕ → V, q.velocity[q.first i]? = some first ∧
      ((startCommand (F := F) cd float json texts per lower disk argv).1.writeFiles st.folder
        (st.files file rs order)).1.node (disk.target ("outputs/".toList ++ q.name) ++
          [("ftle_" ++ env.stem (String.ofList first) ++ q.extension).toList]) =
        some (.file (file saved)) ∧
      saved.Says (content Λ) ∧
      A i Λ :=
  saved_with cd float json texts per lower hl hlow hs hm hq hsens hname disk env hstem hn htakes
    (fun h => setup_grid lower hlow (by rwa [hgrid, hshape] at h)) hW value content hwrite hseed A mem
    hrun hst hH h₀ h hr order ho file

end

section
variable {α : Type} (cd : CharData) (float : Str → Option ℝ) (json : Str → List Str)
  (texts : Str → Option Str) (per : ℝ → ℝ → Py ℤ) (lower : String → String)

theorem centroid_shape2 {N : ℕ} {seed : NDArray ℝ} (hs : seed.shape = [4 * N, 2])
    {P : Particles ℝ} (hp : mkParticles seed = .ok P) : P.initialCentroid.shape = [N, 2] ∧
    ∀ g, (List.range 2).map (fun e => P.initialCentroid.get [g, e]) =
      List.ofFn fun c => (∑ b, groupOf seed 4 N 2 g b c) / (4 : ℕ) := by
  obtain ⟨p, h1, -, -, -, -, h2, -, -, -, h3⟩ := mkParticles_2d hs
  rw [hp] at h1
  cases h1
  refine ⟨h2, fun g => ?_⟩
  simp [List.range_succ, h3, groupOf, rowOf, Fin.sum_univ_four]

theorem centroid_shape3 {N : ℕ} {seed : NDArray ℝ} (hs : seed.shape = [6 * N, 3])
    {P : Particles ℝ} (hp : mkParticles seed = .ok P) : P.initialCentroid.shape = [N, 3] ∧
    ∀ g, (List.range 3).map (fun e => P.initialCentroid.get [g, e]) =
      List.ofFn fun c => (∑ b, groupOf seed 6 N 3 g b c) / (6 : ℕ) := by
  obtain ⟨p, h1, -, -, -, -, -, h2, -, -, -, h3⟩ := mkParticles_3d hs
  rw [hp] at h1
  cases h1
  refine ⟨h2, fun g => ?_⟩
  simp [List.range_succ, h3, groupOf, rowOf, Fin.sum_univ_six]

/-- **C106** (plane, completion).  A call of the program with the fast interpolator and `.mat` output on
a survey that resolves the flow runs to its end: every execution in which no worker dies can be
continued until the executor returns, and the exit status is then 0. -/
theorem C106_completes_2d (hl : cd.Lawful)
    (hlow : ∀ s ∈ ["rk4", "euler", "ab2", "cubic", "linear", "nearest", "grid"], lower s = s)
    {argv : List Str} {l m : List (Opt × Str)} (hs : Says cd argv l)
    (hm : FromFile (fun p => (texts p).bind (configItems cd json)) argv l m) {q : Experiment ℝ}
    (hq : Asks cd float texts per (m ++ l) q) (hsens : q.Sensible)
    (hname : q.name.head? ≠ some '/') (disk : Disk α) {env : Env ℝ FVal} (he : RealEnv env)
    (hex : ExactTarget env.m)
    {nx ny : ℕ} (hgrid : q.interpolator = "grid") (hshape : q.flowGrid = some [nx, ny])
    (hfmt : q.format = "mat") {v : ℝ → (Fin 2 → ℝ) → Fin 2 → ℝ} {t₁ x0 dx y0 dy : ℝ}
    {P : Particles ℝ} (survey : Survey2 env.fs q v t₁ nx ny x0 dx y0 dy P) {N : ℕ} (hfit : q.ShapeFits N)
    {seed : NDArray ℝ} (hseed : seed.shape = [4 * N, 2]) (hp : mkParticles seed = .ok P)
    {L B M r : ℝ} {X : ℕ → ℕ → Fin 4 → ℝ → Fin 2 → ℝ} {σ : ℕ → ℕ → ℝ}
    (resolved : Resolved2 q v t₁ nx ny x0 dx y0 dy L B M r N (groupOf seed 4 N 2) X σ)
    (mem : ℕ → List ℕ → ℝ) {st : Started ℝ FVal}
    (hst : (startCommand cd float json texts per lower disk argv).2.2 = .ok st)
    {H : Host (Shared ℝ) (List ℕ → ℝ) (Option (List FVal) × List (Event ℝ FVal))}
    (hH : st.program.host env = .ok H)
    {s₀ s : HostState (Shared ℝ) (Option (List FVal) × List (Event ℝ FVal))}
    {as : List (Action (Option (List FVal) × List (Event ℝ FVal)))}
    (h₀ : H.init mem = .ok s₀) (h : HostState.Exec H mem s₀ as s) (hc : .crash ∉ as)
    (start stop : ℤ) :
    ∃ bs s' rs, HostState.Exec H mem s₀ (as ++ bs) s' ∧ s'.pool.phase = .returned rs ∧
      exitStatus (mainProgram start stop (.ok rs : Py _)).1 = 0 :=
  completes_of_runs cd float json texts per lower hl hlow hs hm hq hsens hname disk env hgrid hshape
    (W := .mat) (fun h => setup_mat lower (by rwa [hfmt] at h)) FVal.fin _
    (fun name Λ => mat_written (.inl rfl) hfit FVal.fin name Λ (centroid_shape2 hseed hp).1) survey.seeds
    (fun i Λ => ∀ g < N, Near (Λ g) ((q.snapshots - 1) * |q.timestep|)
      (σ i g) (stretchError2 (L * max dx dy) L B M q.timestep q.snapshots (groupOf seed 4 N 2 g))) mem
    (fun k i hi _ ht => survey.run he hex hseed hp resolved hsens hi ht k (mem i)) hst hH h₀ h hc
    start stop

/-- **C106** (plane, values).  When the executor returns, the folder `outputs/NAME` holds, for every
field, a file named after the snapshot at which the field starts.  The file says one record per
group: the mean position of its four seeds, and a value that differs from `ln σ / T` by at most
`(1/T) e / (σ - e)`.  Here `σ` is the largest stretching of the group by the exact flow, started at
the time of that snapshot and followed for `n` steps, `T = (n - 1)|h|` is the period the code divides
by (C37), and `e` the error of the stretching (`stretchError2`). -/
theorem C106_values_2d (hl : cd.Lawful)
    (hlow : ∀ s ∈ ["rk4", "euler", "ab2", "cubic", "linear", "nearest", "grid"], lower s = s)
    {argv : List Str} {l m : List (Opt × Str)} (hs : Says cd argv l)
    (hm : FromFile (fun p => (texts p).bind (configItems cd json)) argv l m) {q : Experiment ℝ}
    (hq : Asks cd float texts per (m ++ l) q) (hsens : q.Sensible)
    (hname : q.name.head? ≠ some '/') (disk : Disk α) {env : Env ℝ FVal} (he : RealEnv env)
    (hex : ExactTarget env.m)
    (hstem : ∀ v ∈ (inRunOrder q.timestep q.velocity).take q.fields, '/' ∉ (env.stem v).toList)
    (hn : (((inRunOrder q.timestep q.velocity).take q.fields).map env.stem).Nodup)
    (htakes : disk.Takes ("outputs/".toList ++ q.name) (q.fileNames env.stem))
    {nx ny : ℕ} (hgrid : q.interpolator = "grid") (hshape : q.flowGrid = some [nx, ny])
    (hfmt : q.format = "mat") {v : ℝ → (Fin 2 → ℝ) → Fin 2 → ℝ} {t₁ x0 dx y0 dy : ℝ}
    {P : Particles ℝ} (survey : Survey2 env.fs q v t₁ nx ny x0 dx y0 dy P) {N : ℕ} (hfit : q.ShapeFits N)
    {seed : NDArray ℝ} (hseed : seed.shape = [4 * N, 2]) (hp : mkParticles seed = .ok P)
    {L B M r : ℝ} {X : ℕ → ℕ → Fin 4 → ℝ → Fin 2 → ℝ} {σ : ℕ → ℕ → ℝ}
    (resolved : Resolved2 q v t₁ nx ny x0 dx y0 dy L B M r N (groupOf seed 4 N 2) X σ)
    (mem : ℕ → List ℕ → ℝ) {st : Started ℝ FVal}
    (hst : (startCommand cd float json texts per lower disk argv).2.2 = .ok st)
    {H : Host (Shared ℝ) (List ℕ → ℝ) (Option (List FVal) × List (Event ℝ FVal))}
    (hH : st.program.host env = .ok H)
    {s₀ s : HostState (Shared ℝ) (Option (List FVal) × List (Event ℝ FVal))}
    {as : List (Action (Option (List FVal) × List (Event ℝ FVal)))}
    {rs : List (Option (Option (List FVal) × List (Event ℝ FVal)))}
    (h₀ : H.init mem = .ok s₀) (h : HostState.Exec H mem s₀ as s)
    (hr : s.pool.phase = .returned rs)
    (order : List ℕ) (ho : order.Perm (List.range q.fields)) (file : Saved ℝ FVal → α) :
    ∀ i < q.fields, ∃ first saved, ∃ Λ : ℕ → ℝ, q.velocity[q.first i]? = some first ∧
      ((startCommand (F := FVal) cd float json texts per lower disk argv).1.writeFiles st.folder
        (st.files file rs order)).1.node (disk.target ("outputs/".toList ++ q.name) ++
          [("ftle_" ++ env.stem (String.ofList first) ++ ".mat").toList]) =
        some (.file (file saved)) ∧
      saved.Says ((List.range N).map fun g => groupRecordAt (Λ g) (groupOf seed 4 N 2 g)) ∧
      ∀ g < N, Near (Λ g) ((q.snapshots - 1) * |q.timestep|) (σ i g)
        (stretchError2 (L * max dx dy) L B M q.timestep q.snapshots (groupOf seed 4 N 2 g)) := by
  obtain ⟨hc1, hc2⟩ := centroid_shape2 hseed hp
  intro i hi
  obtain ⟨first, saved, Λ, g1, g2, g3, g4⟩ := saved_of_runs cd float json texts per lower hl hlow hs
    hm hq hsens hname disk env hstem hn htakes hgrid hshape (W := .mat)
    (fun h => setup_mat lower (by rwa [hfmt] at h)) FVal.fin _
    (fun name Λ => mat_written (.inl rfl) hfit FVal.fin name Λ hc1) survey.seeds
    (fun i Λ => ∀ g < N, Near (Λ g) ((q.snapshots - 1) * |q.timestep|)
      (σ i g) (stretchError2 (L * max dx dy) L B M q.timestep q.snapshots (groupOf seed 4 N 2 g))) mem
    (fun k i hi _ ht => survey.run he hex hseed hp resolved hsens hi ht k (mem i)) hst hH h₀ h hr
    order ho file i hi
  have hext : q.extension = ".mat" := by simp [Experiment.extension, hfmt]
  rw [hext] at g2
  refine ⟨first, saved, Λ, g1, g2, ?_, g4⟩
  simp only [hc2] at g3
  exact g3

/-- **C106** (space, completion). -/
theorem C106_completes_3d (hl : cd.Lawful)
    (hlow : ∀ s ∈ ["rk4", "euler", "ab2", "cubic", "linear", "nearest", "grid"], lower s = s)
    {argv : List Str} {l m : List (Opt × Str)} (hs : Says cd argv l)
    (hm : FromFile (fun p => (texts p).bind (configItems cd json)) argv l m) {q : Experiment ℝ}
    (hq : Asks cd float texts per (m ++ l) q) (hsens : q.Sensible)
    (hname : q.name.head? ≠ some '/') (disk : Disk α) {env : Env ℝ FVal} (he : RealEnv env)
    (hex : ExactTarget env.m)
    {mx nz : ℕ} (hgrid : q.interpolator = "grid") (hshape : q.flowGrid = some [mx, mx, nz])
    (hfmt : q.format = "mat") {v : ℝ → (Fin 3 → ℝ) → Fin 3 → ℝ} {t₁ x0 dx y0 dy z0 dz : ℝ}
    {P : Particles ℝ} (survey : Survey3 env.fs q v t₁ mx nz x0 dx y0 dy z0 dz P) {N : ℕ} (hfit : q.ShapeFits N)
    {seed : NDArray ℝ} (hseed : seed.shape = [6 * N, 3]) (hp : mkParticles seed = .ok P)
    {L B M r : ℝ} {X : ℕ → ℕ → Fin 6 → ℝ → Fin 3 → ℝ} {σ : ℕ → ℕ → ℝ}
    (resolved : Resolved3 q v t₁ mx nz x0 dx y0 dy z0 dz L B M r N (groupOf seed 6 N 3) X σ)
    (mem : ℕ → List ℕ → ℝ) {st : Started ℝ FVal}
    (hst : (startCommand cd float json texts per lower disk argv).2.2 = .ok st)
    {H : Host (Shared ℝ) (List ℕ → ℝ) (Option (List FVal) × List (Event ℝ FVal))}
    (hH : st.program.host env = .ok H)
    {s₀ s : HostState (Shared ℝ) (Option (List FVal) × List (Event ℝ FVal))}
    {as : List (Action (Option (List FVal) × List (Event ℝ FVal)))}
    (h₀ : H.init mem = .ok s₀) (h : HostState.Exec H mem s₀ as s) (hc : .crash ∉ as)
    (start stop : ℤ) :
    ∃ bs s' rs, HostState.Exec H mem s₀ (as ++ bs) s' ∧ s'.pool.phase = .returned rs ∧
      exitStatus (mainProgram start stop (.ok rs : Py _)).1 = 0 :=
  completes_of_runs cd float json texts per lower hl hlow hs hm hq hsens hname disk env hgrid hshape
    (W := .mat) (fun h => setup_mat lower (by rwa [hfmt] at h)) FVal.fin _
    (fun name Λ => mat_written (.inr rfl) hfit FVal.fin name Λ (centroid_shape3 hseed hp).1) survey.seeds
    (fun i Λ => ∀ g < N, Near (Λ g) ((q.snapshots - 1) * |q.timestep|)
      (σ i g) (stretchError3 (L * max (max dx dy) dz) L B M q.timestep q.snapshots (groupOf seed 6 N 3 g))) mem
    (fun k i hi _ ht => survey.run he hex hseed hp resolved hsens hi ht k (mem i)) hst hH h₀ h hc
    start stop

/-- **C106** (space, values).  Groups of six seeds; grids with as many nodes in `x` as in `y` (C30). -/
theorem C106_values_3d (hl : cd.Lawful)
    (hlow : ∀ s ∈ ["rk4", "euler", "ab2", "cubic", "linear", "nearest", "grid"], lower s = s)
    {argv : List Str} {l m : List (Opt × Str)} (hs : Says cd argv l)
    (hm : FromFile (fun p => (texts p).bind (configItems cd json)) argv l m) {q : Experiment ℝ}
    (hq : Asks cd float texts per (m ++ l) q) (hsens : q.Sensible)
    (hname : q.name.head? ≠ some '/') (disk : Disk α) {env : Env ℝ FVal} (he : RealEnv env)
    (hex : ExactTarget env.m)
    (hstem : ∀ v ∈ (inRunOrder q.timestep q.velocity).take q.fields, '/' ∉ (env.stem v).toList)
    (hn : (((inRunOrder q.timestep q.velocity).take q.fields).map env.stem).Nodup)
    (htakes : disk.Takes ("outputs/".toList ++ q.name) (q.fileNames env.stem))
    {mx nz : ℕ} (hgrid : q.interpolator = "grid") (hshape : q.flowGrid = some [mx, mx, nz])
    (hfmt : q.format = "mat") {v : ℝ → (Fin 3 → ℝ) → Fin 3 → ℝ} {t₁ x0 dx y0 dy z0 dz : ℝ}
    {P : Particles ℝ} (survey : Survey3 env.fs q v t₁ mx nz x0 dx y0 dy z0 dz P) {N : ℕ} (hfit : q.ShapeFits N)
    {seed : NDArray ℝ} (hseed : seed.shape = [6 * N, 3]) (hp : mkParticles seed = .ok P)
    {L B M r : ℝ} {X : ℕ → ℕ → Fin 6 → ℝ → Fin 3 → ℝ} {σ : ℕ → ℕ → ℝ}
    (resolved : Resolved3 q v t₁ mx nz x0 dx y0 dy z0 dz L B M r N (groupOf seed 6 N 3) X σ)
    (mem : ℕ → List ℕ → ℝ) {st : Started ℝ FVal}
    (hst : (startCommand cd float json texts per lower disk argv).2.2 = .ok st)
    {H : Host (Shared ℝ) (List ℕ → ℝ) (Option (List FVal) × List (Event ℝ FVal))}
    (hH : st.program.host env = .ok H)
    {s₀ s : HostState (Shared ℝ) (Option (List FVal) × List (Event ℝ FVal))}
    {as : List (Action (Option (List FVal) × List (Event ℝ FVal)))}
    {rs : List (Option (Option (List FVal) × List (Event ℝ FVal)))}
    (h₀ : H.init mem = .ok s₀) (h : HostState.Exec H mem s₀ as s)
    (hr : s.pool.phase = .returned rs)
    (order : List ℕ) (ho : order.Perm (List.range q.fields)) (file : Saved ℝ FVal → α) :
    ∀ i < q.fields, ∃ first saved, ∃ Λ : ℕ → ℝ, q.velocity[q.first i]? = some first ∧
      ((startCommand (F := FVal) cd float json texts per lower disk argv).1.writeFiles st.folder
        (st.files file rs order)).1.node (disk.target ("outputs/".toList ++ q.name) ++
          [("ftle_" ++ env.stem (String.ofList first) ++ ".mat").toList]) =
        some (.file (file saved)) ∧
      saved.Says ((List.range N).map fun g => groupRecordAt (Λ g) (groupOf seed 6 N 3 g)) ∧
      ∀ g < N, Near (Λ g) ((q.snapshots - 1) * |q.timestep|) (σ i g)
        (stretchError3 (L * max (max dx dy) dz) L B M q.timestep q.snapshots (groupOf seed 6 N 3 g)) := by
  obtain ⟨hc1, hc2⟩ := centroid_shape3 hseed hp
  intro i hi
  obtain ⟨first, saved, Λ, g1, g2, g3, g4⟩ := saved_of_runs cd float json texts per lower hl hlow hs
    hm hq hsens hname disk env hstem hn htakes hgrid hshape (W := .mat)
    (fun h => setup_mat lower (by rwa [hfmt] at h)) FVal.fin _
    (fun name Λ => mat_written (.inr rfl) hfit FVal.fin name Λ hc1) survey.seeds
    (fun i Λ => ∀ g < N, Near (Λ g) ((q.snapshots - 1) * |q.timestep|)
      (σ i g) (stretchError3 (L * max (max dx dy) dz) L B M q.timestep q.snapshots (groupOf seed 6 N 3 g))) mem
    (fun k i hi _ ht => survey.run he hex hseed hp resolved hsens hi ht k (mem i)) hst hH h₀ h hr
    order ho file i hi
  have hext : q.extension = ".mat" := by simp [Experiment.extension, hfmt]
  rw [hext] at g2
  refine ⟨first, saved, Λ, g1, g2, ?_, g4⟩
  simp only [hc2] at g3
  exact g3

end

end Verif
