import Verif.Lemmas.Scattered
import Verif.Props.Survey
import Mathlib.Order.Bounds.Basic
import Mathlib.Data.Finset.Max

/-!
# C116: accuracy of runs on scattered data
-/

namespace Verif

open Matrix Set

/-! ## The contract

Interpolation by the nearest point, and linear interpolation in triangles, blend nearby values. -/

/-- An interpolator whose value is the one at a nearest sample point blends values from within `Δ`,
on the points that are within `Δ` of some sample point. -/
theorem C116_nearest_blends {sp : SciPy ℝ} {me : Scatter} {p : NDArray ℝ} {n : ℕ}
    (near : (Fin 2 → ℝ) → ℕ)
    (hnear : ∀ z, near z < n ∧ ∀ k < n, ‖samplePoint p (near z) - z‖ ≤ ‖samplePoint p k - z‖)
    (build : ∀ w : NDArray ℝ, w.shape = [n] → sp.scatterBuild me p w = none)
    (call : ∀ (w q : NDArray ℝ) (rows : ℕ), w.shape = [n] → q.shape = [rows, 2] →
      ∃ f, sp.scatterCall me p w q = .ok f ∧ ∀ r < rows, f r = w.get [near (rowOf q 2 r)])
    (Δ : ℝ) : sp.Blends me p n {z | ∃ k < n, ‖samplePoint p k - z‖ ≤ Δ} Δ where
  build := build
  call := by
    refine ⟨fun z k => if k = near z then 1 else 0, ?_, fun w q rows hw hq => ?_⟩
    · rintro z ⟨k, hk, hz⟩
      refine ⟨fun k _ => by dsimp only; split <;> norm_num, ?_, fun k _ h => ?_⟩
      · simp [(hnear z).1]
      · have : k = near z := by
          by_contra hne
          simp [hne] at h
        rw [this]
        exact ((hnear z).2 _ hk).trans hz
    · obtain ⟨f, h1, h2⟩ := call w q rows hw hq
      refine ⟨f, h1, fun r hr _ => ?_⟩
      rw [h2 r hr]
      simp [(hnear (rowOf q 2 r)).1]

/-- An interpolator that is linear on triangles with corners at the sample points blends values from
within the largest diameter of a triangle, on the union of the triangles.  Triangle `a` has the
corners `c a 0`, `c a 1`, `c a 2`; the point `z` lies in triangle `tri z`, where it has the
barycentric coordinates `bar z`. -/
theorem C116_linear_blends {sp : SciPy ℝ} {me : Scatter} {p : NDArray ℝ} {n : ℕ}
    {c : ℕ → Fin 3 → ℕ} (hc : ∀ a i, c a i < n) {R : Set (Fin 2 → ℝ)}
    (tri : (Fin 2 → ℝ) → ℕ) (bar : (Fin 2 → ℝ) → Fin 3 → ℝ)
    (hbar : ∀ z ∈ R, (∀ i, 0 ≤ bar z i) ∧ ∑ i, bar z i = 1 ∧
      z = ∑ i, bar z i • samplePoint p (c (tri z) i))
    {Δ : ℝ} (hΔ : ∀ a i j, ‖samplePoint p (c a i) - samplePoint p (c a j)‖ ≤ Δ)
    (build : ∀ w : NDArray ℝ, w.shape = [n] → sp.scatterBuild me p w = none)
    (call : ∀ (w q : NDArray ℝ) (rows : ℕ), w.shape = [n] → q.shape = [rows, 2] →
      ∃ f, sp.scatterCall me p w q = .ok f ∧ ∀ r < rows, rowOf q 2 r ∈ R →
        f r = ∑ i, bar (rowOf q 2 r) i * w.get [c (tri (rowOf q 2 r)) i]) :
    sp.Blends me p n R Δ where
  build := build
  call := by
    refine ⟨fun z k => ∑ i, if c (tri z) i = k then bar z i else 0, ?_, fun w q rows hw hq => ?_⟩
    · intro z hz
      obtain ⟨h1, h2, h3⟩ := hbar z hz
      refine ⟨fun k _ => Finset.sum_nonneg fun i _ => by split <;> simp [h1 i], ?_, fun k _ h => ?_⟩
      · rw [Finset.sum_comm]
        simp [hc, h2]
      · obtain ⟨i, -, hi⟩ := Finset.exists_ne_zero_of_sum_ne_zero h
        have hi : c (tri z) i = k := by
          by_contra hne
          simp [hne] at hi
        have e : samplePoint p k - z =
            ∑ j, bar z j • (samplePoint p (c (tri z) i) - samplePoint p (c (tri z) j)) := by
          conv_lhs => rw [h3, ← hi]
          simp only [smul_sub, Finset.sum_sub_distrib, ← Finset.sum_smul, h2, one_smul]
        rw [e]
        calc ‖∑ j, bar z j • (samplePoint p (c (tri z) i) - samplePoint p (c (tri z) j))‖
            ≤ ∑ j, ‖bar z j • (samplePoint p (c (tri z) i) - samplePoint p (c (tri z) j))‖ :=
              norm_sum_le _ _
          _ ≤ ∑ j, bar z j * Δ := by
              refine Finset.sum_le_sum fun j _ => ?_
              rw [norm_smul, Real.norm_eq_abs, abs_of_nonneg (h1 j)]
              exact mul_le_mul_of_nonneg_left (hΔ _ _ _) (h1 j)
          _ = Δ := by rw [← Finset.sum_mul, h2, one_mul]
    · obtain ⟨f, h1, h2⟩ := call w q rows hw hq
      refine ⟨f, h1, fun r hr hR => ?_⟩
      rw [h2 r hr hR]
      simp only [Finset.sum_mul]
      rw [Finset.sum_comm]
      refine Finset.sum_congr rfl fun i _ => ?_
      simp [hc, ite_mul]

/-! ## One run -/

/-- **C116 (one run).**  A run over at least two snapshots with an interpolator of scattered data that
blends values from within `Δ`, on velocities of `v` at the points `p j`: it succeeds, and the value of
every group differs from `(1/T) ln σ` by at most `(1/T) b / (σ - b)`, where `σ` is the maximal
stretching of the central differences of the exact positions, and `b` their error for velocities
known up to `L Δ`. -/
theorem C116_run {env : Env ℝ FVal} (he : RealEnv env) (queue : Bool) (k : Kind) {me : Scatter}
    {v : ℝ → (Fin 2 → ℝ) → Fin 2 → ℝ} {t0 L B M r Δ : ℝ} {s : FileSource ℝ}
    {p : ℕ → NDArray ℝ} {n : ℕ → ℕ} (hd : ScatterSamples env.fs s v t0 p n)
    {R : ℕ → Set (Fin 2 → ℝ)} {m : ℕ} (hn : s.snapshotFiles.length = m) (hn2 : 2 ≤ m)
    (hb : ∀ j < m, env.sp.Blends me (p j) (n j) (R j) Δ) {h : ℝ} (hh : s.timestep = h) (hh0 : h ≠ 0)
    (small : SmallSteps (L * Δ) L B M h m r) {N : ℕ} {seed : NDArray ℝ}
    (hs : seed.shape = [4 * N, 2]) {P : Particles ℝ} (hp : mkParticles seed = .ok P)
    (hP : readSeedParticles env.fs s.particleFile = .ok P)
    (X : ℕ → Fin 4 → ℝ → Fin 2 → ℝ)
    (hX : ∀ i < N, ∀ b, Along v t0 h m B M (X i b) ∧ X i b t0 = groupOf seed 4 N 2 i b)
    (hL : ∀ i < N, ∀ b, ∀ j < m, ∀ k < n j,
      ‖v (t0 + j * h) (samplePoint (p j) k) - v (t0 + j * h) (X i b (t0 + j * h))‖ ≤
        L * ‖samplePoint (p j) k - X i b (t0 + j * h)‖)
    (hin : ∀ i < N, ∀ b, ∀ j < m, ∀ z, ‖z - X i b (t0 + j * h)‖ ≤ r → z ∈ R j)
    (D : ℕ → Matrix (Fin 2) (Fin 2) ℝ)
    (hD : ∀ i < N, centralDiff2 (fun b => X i b (t0 + m * h)) (groupOf seed 4 N 2 i) = .ok (D i))
    (σ b : ℕ → ℝ) (hb' : ∀ i, b i = 4 * posError (L * Δ) L B M h m *
      (1 / |groupOf seed 4 N 2 i 1 0 - groupOf seed 4 N 2 i 0 0| +
        1 / |groupOf seed 4 N 2 i 2 1 - groupOf seed 4 N 2 i 3 1|))
    (hσ : ∀ i < N, IsMaxStretch (D i) (σ i) ∧ b i < σ i) :
    ∃ Λ : ℕ → ℝ, ((⟨.file s, .scatter (.fresh me), .fresh k⟩ : Solver ℝ).run env
        queue none).result = .ok (some ((List.range N).map fun i => .fin (Λ i))) ∧
      ∀ i < N, |Λ i - 1 / (((m : ℝ) - 1) * |h|) * Real.log (σ i)| ≤
        1 / (((m : ℝ) - 1) * |h|) * (b i / (σ i - b i)) := by
  have all := fun j (hj : j < m) => scatter_samples (env := env) (me := me) hd
    (fun j hj => hb j (by omega)) j (by omega) (rows := 4 * N) (by omega)
  choose! hup W w1 w2 using all
  refine C84_error_2d (src := .file s) he queue k hn hn2 hh hh0 small hs hp hP X hX
    (I0 := .scatter (.fresh me)) trivial rfl hup _ R w2
    (fun i hi b j hj z hz => ⟨hin i hi b j hj z hz, ?_⟩) D hD σ b hb' hσ
  obtain ⟨a1, a2, a3⟩ := w1 j hj z (hin i hi b j hj z hz)
  have hL0 := small.lip
  have hε := small.eps
  rw [hh]
  refine blend_error a1 a2 (fun k hk hw => (hL i hi b j hj k hk).trans ?_) (by positivity)
  have h1 := a3 k hk hw
  have h2 := norm_add_le (samplePoint (p j) k - z) (z - X i b (t0 + j * h))
  rw [sub_add_sub_cancel] at h2
  have := mul_le_mul_of_nonneg_left (h2.trans (add_le_add_left h1 _)) hL0
  linarith

/-! ## The windows of a survey -/

section
variable {q : Experiment ℝ} {stem : String → String} {i : ℕ} {t : FileSource ℝ}

/-- The coordinate file of a step of a window is the one that goes with its velocity file. -/
theorem window_mesh (hc : q.coordinate.length = 1 ∨ q.coordinate.length = q.velocity.length)
    (hi : i < q.fields) (he : q.snapshots ≤ q.velocity.length)
    (ht : IsWindow stem (inRunOrder q.timestep q.velocity) (inRunOrder q.timestep q.coordinate)
      (inRunOrder q.timestep q.particle) q.timestep q.snapshots i t) {j : ℕ}
    (hj : j < q.snapshots) :
    t.coordinateFiles[j]? = (q.mesh (q.first (i + j))).map String.ofList := by
  unfold Experiment.fields at hi
  have hlt : i + j < q.velocity.length := by omega
  have h1 := ht.coordinates j hj
  rw [inRunOrder_length] at h1
  rw [h1]
  unfold Experiment.mesh
  split
  · next h =>
    obtain ⟨c, hc⟩ := List.length_eq_one_iff.1 h
    have : inRunOrder q.timestep q.coordinate = [String.ofList c] := by
      unfold inRunOrder
      split <;> simp [hc]
    rw [this, h, Nat.mod_one, hc]
    rfl
  · next h =>
    have h : q.coordinate.length = q.velocity.length := hc.resolve_left h
    rw [h, Nat.mod_eq_of_lt hlt, inRunOrder_get q _ (by omega) h]

/-- The window of a field of a survey at scattered points. -/
theorem ScatteredSurvey.window {fs : MatFS ℝ} {v : ℝ → (Fin 2 → ℝ) → Fin 2 → ℝ} {start : ℝ}
    {p : ℕ → NDArray ℝ} {n : ℕ → ℕ} {P : Particles ℝ} (sv : ScatteredSurvey fs q v start p n P)
    (hi : i < q.fields) (he : q.snapshots ≤ q.velocity.length)
    (ht : IsWindow stem (inRunOrder q.timestep q.velocity) (inRunOrder q.timestep q.coordinate)
      (inRunOrder q.timestep q.particle) q.timestep q.snapshots i t) :
    ScatterSamples fs t v (q.startTime start i) (fun j => p (q.first (i + j)))
      (fun j => n (q.first (i + j))) := by
  have hfl : ∀ j < q.snapshots, q.first (i + j) < q.velocity.length := by
    intro j hj
    unfold Experiment.fields at hi
    unfold Experiment.first
    split <;> omega
  have coord : ∀ j < q.snapshots, ∃ c, t.coordinateFiles[j]? = some (String.ofList c) ∧
      readCoordinate fs (String.ofList c) = .ok (p (q.first (i + j))) ∧
      (p (q.first (i + j))).shape = [2, n (q.first (i + j))] := by
    intro j hj
    obtain ⟨c, c1, c2, c3⟩ := sv.points _ (hfl j hj)
    exact ⟨c, by rw [window_mesh sv.meshes hi he ht hj, c1]; rfl, c2, c3⟩
  refine ⟨fun hr j hj => ?_, fun j hj => ?_⟩
  · rw [ht.snapshots_length] at hj
    obtain ⟨c, c1, c2, -⟩ := coord j hj
    obtain ⟨c', d1, d2, -⟩ := coord 0 (by omega)
    have := ht.reuse.1 hr _ (List.mem_of_getElem? c1) _ (List.mem_of_getElem? d1)
    rw [this, d2] at c2
    exact (Except.ok.inj c2).symm
  · rw [ht.snapshots_length] at hj
    obtain ⟨f, f1, f2⟩ := window_velocity hi he ht hj
    obtain ⟨c, c1, c2, c3⟩ := coord j hj
    obtain ⟨V, v1, v2, v3⟩ := sv.samples _ f f1
    refine ⟨V, ⟨⟨_, f2, v1⟩, _, c1, c2⟩, v2, c3, fun k hk e => ?_⟩
    rw [v3 k hk e, ht.timestep, startTime_step]
    unfold Experiment.fields at hi
    omega

/-- The run on a window of a survey at scattered points. -/
theorem ScatteredSurvey.run {env : Env ℝ FVal} (he : RealEnv env) {me : Scatter}
    {v : ℝ → (Fin 2 → ℝ) → Fin 2 → ℝ} {start : ℝ} {p : ℕ → NDArray ℝ} {n : ℕ → ℕ} {P : Particles ℝ}
    (sv : ScatteredSurvey env.fs q v start p n P) {R : ℕ → Set (Fin 2 → ℝ)} {Δ : ℝ}
    (hb : ∀ j < q.velocity.length, env.sp.Blends me (p j) (n j) (R j) Δ)
    {N : ℕ} {seed : NDArray ℝ} (hs : seed.shape = [4 * N, 2]) (hp : mkParticles seed = .ok P)
    {L B M r : ℝ} {X : ℕ → ℕ → Fin 4 → ℝ → Fin 2 → ℝ} {σ : ℕ → ℕ → ℝ}
    (rs : ScatteredResolved q v start p n R Δ L B M r N (groupOf seed 4 N 2) X σ)
    (hq : q.Sensible) (hi : i < q.fields)
    (ht : IsWindow stem (inRunOrder q.timestep q.velocity) (inRunOrder q.timestep q.coordinate)
      (inRunOrder q.timestep q.particle) q.timestep q.snapshots i t) (k : Kind) (mem : List ℕ → ℝ) :
    ∃ Λ : ℕ → ℝ, (aloneRun { env with junk := mem } none (.file t)
        (.scatter (.fresh me)) k).result =
          .ok (some ((List.range N).map fun g => .fin (Λ g))) ∧
      ∀ g < N, Near (Λ g) ((q.snapshots - 1) * |q.timestep|) (σ i g)
        (stretchError2 (L * Δ) L B M q.timestep q.snapshots (groupOf seed 4 N 2 g)) := by
  obtain ⟨f, hf, hfe⟩ := window_particle hq.particle_ne ht
  choose! D hD using rs.stretching i hi
  have hfl : ∀ j < q.snapshots, q.first (i + j) < q.velocity.length := by
    intro j hj
    have := hq.enough
    unfold Experiment.fields at hi
    unfold Experiment.first
    split <;> omega
  exact C116_run (env := { env with junk := mem }) ⟨he.abs, he.f2, he.f3⟩ true k
    (sv.window hi hq.enough ht) ht.snapshots_length rs.two_le (fun j hj => hb _ (hfl j hj)) ht.timestep
    rs.step rs.small hs hp (by rw [hfe]; exact sv.seeds f hf) (X i) (rs.trajectories i hi)
    (rs.lipschitz i hi) (rs.inside i hi) D (fun g hg => (hD g hg).1) (σ i) _ (fun g => rfl)
    (fun g hg => (hD g hg).2)

end

/-! ## From the command line to the files -/

/-- Without the shape of a grid, the interpolators of scattered data are made. -/
theorem setup_scatter {K : Type} [Zero K] (lower : String → String)
    (hlow : ∀ s ∈ ["rk4", "euler", "ab2", "cubic", "linear", "nearest", "grid"], lower s = s)
    (me : Scatter) {a c : String} {I : AnyInterp K} {k : Kind} {w : WriterKind}
    (h : setup lower ⟨some a, some me.name, some c⟩ none = .ok (I, k, w)) :
    I = .scatter (.fresh me) := by
  have hg : lower me.name = me.name := hlow _ (by cases me <;> simp [Scatter.name])
  unfold setup at h
  simp only [cliInterpolator, createInterpolator, hg] at h
  cases me
  all_goals
    simp only [Scatter.name, ne_eq, not_true_eq_false, and_false, false_and, if_false, if_true,
      String.reduceEq] at h
    split at h
    · cases h
    · split at h
      · cases h
      · cases h; rfl

section
variable {α : Type} (cd : CharData) (float : Str → Option ℝ) (json : Str → List Str)
  (texts : Str → Option Str) (per : ℝ → ℝ → Py ℤ) (lower : String → String)

/-- **C116** (completion).  A call of the program that names an interpolator, no shape of the flow
grid and `.mat` output, on a survey at scattered points that resolves the flow, runs to its end: every
execution in which no worker dies can be continued until the executor returns, and the exit
status is then 0.  One coordinate file for all snapshots is enough. -/
theorem C116_completes (hl : cd.Lawful)
    (hlow : ∀ s ∈ ["rk4", "euler", "ab2", "cubic", "linear", "nearest", "grid"], lower s = s)
    {argv : List Str} {l m : List (Opt × Str)} (hs : Says cd argv l)
    (hm : FromFile (fun p => (texts p).bind (configItems cd json)) argv l m) {q : Experiment ℝ}
    (hq : Asks cd float texts per (m ++ l) q) (hsens : q.Sensible)
    (hname : q.name.head? ≠ some '/') (disk : Disk α) {env : Env ℝ FVal} (he : RealEnv env)
    {me : Scatter} (hme : q.interpolator = me.name) (hshape : q.flowGrid = none)
    (hfmt : q.format = "mat") {v : ℝ → (Fin 2 → ℝ) → Fin 2 → ℝ} {t₁ : ℝ} {p : ℕ → NDArray ℝ}
    {n : ℕ → ℕ} {P : Particles ℝ} (survey : ScatteredSurvey env.fs q v t₁ p n P)
    {R : ℕ → Set (Fin 2 → ℝ)} {Δ : ℝ}
    (blends : ∀ j < q.velocity.length, env.sp.Blends me (p j) (n j) (R j) Δ)
    {N : ℕ} (hfit : q.ShapeFits N)
    {seed : NDArray ℝ} (hseed : seed.shape = [4 * N, 2]) (hp : mkParticles seed = .ok P)
    {L B M r : ℝ} {X : ℕ → ℕ → Fin 4 → ℝ → Fin 2 → ℝ} {σ : ℕ → ℕ → ℝ}
    (resolved : ScatteredResolved q v t₁ p n R Δ L B M r N (groupOf seed 4 N 2) X σ)
    (mem : ℕ → List ℕ → ℝ) {st : Started ℝ FVal}
    (hst : (startCommand cd float json texts per lower disk argv).2.2 = .ok st)
    {H : Host (Shared ℝ) (List ℕ → ℝ) (Option (List FVal) × List (Event ℝ FVal))}
    (hH : st.program.host env = .ok H)
    {s₀ s : HostState (Shared ℝ) (Option (List FVal) × List (Event ℝ FVal))}
    {as : List (Action (Option (List FVal) × List (Event ℝ FVal)))}
    (h₀ : H.init mem = .ok s₀) (h : HostState.Exec H mem s₀ as s) (hc : .crash ∉ as)
    (start stop : ℤ) :
    ∃ bs s' rs, HostState.Exec H mem s₀ (as ++ bs) s' ∧ s'.pool.phase = .returned rs ∧
      exitStatus (mainProgram start stop (.ok rs : Py _)).1 = 0 :=
  completes_with cd float json texts per lower hl hlow hs hm hq hsens hname disk env
    (fun h => setup_scatter lower hlow me (by rwa [hme, hshape] at h))
    (W := .mat) (fun h => setup_mat lower (by rwa [hfmt] at h)) FVal.fin _
    (fun name Λ => mat_written (.inl rfl) hfit FVal.fin name Λ (centroid_shape2 hseed hp).1) survey.seeds
    (fun i Λ => ∀ g < N, Near (Λ g) ((q.snapshots - 1) * |q.timestep|)
      (σ i g) (stretchError2 (L * Δ) L B M q.timestep q.snapshots (groupOf seed 4 N 2 g))) mem
    (fun k i hi _ ht => survey.run he blends hseed hp resolved hsens hi ht k (mem i)) hst hH h₀ h hc
    start stop

/-- **C116** (values).  When the executor returns, the folder `outputs/NAME` holds, for every field, a
file named after the snapshot at which the field starts.  The file says one record per group: the
mean position of its four seeds, and a value that differs from `ln σ / T` by at most
`(1/T) e / (σ - e)`, where `e` is the error of the stretching for velocities known up to `L Δ`. -/
theorem C116_values (hl : cd.Lawful)
    (hlow : ∀ s ∈ ["rk4", "euler", "ab2", "cubic", "linear", "nearest", "grid"], lower s = s)
    {argv : List Str} {l m : List (Opt × Str)} (hs : Says cd argv l)
    (hm : FromFile (fun p => (texts p).bind (configItems cd json)) argv l m) {q : Experiment ℝ}
    (hq : Asks cd float texts per (m ++ l) q) (hsens : q.Sensible)
    (hname : q.name.head? ≠ some '/') (disk : Disk α) {env : Env ℝ FVal} (he : RealEnv env)
    (hstem : ∀ v ∈ (inRunOrder q.timestep q.velocity).take q.fields, '/' ∉ (env.stem v).toList)
    (hn : (((inRunOrder q.timestep q.velocity).take q.fields).map env.stem).Nodup)
    (htakes : disk.Takes ("outputs/".toList ++ q.name) (q.fileNames env.stem))
    {me : Scatter} (hme : q.interpolator = me.name) (hshape : q.flowGrid = none)
    (hfmt : q.format = "mat") {v : ℝ → (Fin 2 → ℝ) → Fin 2 → ℝ} {t₁ : ℝ} {p : ℕ → NDArray ℝ}
    {n : ℕ → ℕ} {P : Particles ℝ} (survey : ScatteredSurvey env.fs q v t₁ p n P)
    {R : ℕ → Set (Fin 2 → ℝ)} {Δ : ℝ}
    (blends : ∀ j < q.velocity.length, env.sp.Blends me (p j) (n j) (R j) Δ)
    {N : ℕ} (hfit : q.ShapeFits N)
    {seed : NDArray ℝ} (hseed : seed.shape = [4 * N, 2]) (hp : mkParticles seed = .ok P)
    {L B M r : ℝ} {X : ℕ → ℕ → Fin 4 → ℝ → Fin 2 → ℝ} {σ : ℕ → ℕ → ℝ}
    (resolved : ScatteredResolved q v t₁ p n R Δ L B M r N (groupOf seed 4 N 2) X σ)
    (mem : ℕ → List ℕ → ℝ) {st : Started ℝ FVal}
    (hst : (startCommand cd float json texts per lower disk argv).2.2 = .ok st)
    {H : Host (Shared ℝ) (List ℕ → ℝ) (Option (List FVal) × List (Event ℝ FVal))}
    (hH : st.program.host env = .ok H)
    {s₀ s : HostState (Shared ℝ) (Option (List FVal) × List (Event ℝ FVal))}
    {as : List (Action (Option (List FVal) × List (Event ℝ FVal)))}
    {rs : List (Option (Option (List FVal) × List (Event ℝ FVal)))}
    (h₀ : H.init mem = .ok s₀) (h : HostState.Exec H mem s₀ as s)
    (hr : s.pool.phase = .returned rs)
    (order : List ℕ) (ho : order.Perm (List.range q.fields)) (file : Saved ℝ FVal → α) :
    ∀ i < q.fields, ∃ first saved, ∃ Λ : ℕ → ℝ, q.velocity[q.first i]? = some first ∧
      ((startCommand (F := FVal) cd float json texts per lower disk argv).1.writeFiles st.folder
        (st.files file rs order)).1.node (disk.target ("outputs/".toList ++ q.name) ++
          [("ftle_" ++ env.stem (String.ofList first) ++ ".mat").toList]) =
        some (.file (file saved)) ∧
      saved.Says ((List.range N).map fun g => groupRecordAt (Λ g) (groupOf seed 4 N 2 g)) ∧
      ∀ g < N, Near (Λ g) ((q.snapshots - 1) * |q.timestep|) (σ i g)
        (stretchError2 (L * Δ) L B M q.timestep q.snapshots (groupOf seed 4 N 2 g)) := by
  obtain ⟨hc1, hc2⟩ := centroid_shape2 hseed hp
  intro i hi
  obtain ⟨first, saved, Λ, g1, g2, g3, g4⟩ := saved_with cd float json texts per lower hl hlow hs
    hm hq hsens hname disk env hstem hn htakes
    (fun h => setup_scatter lower hlow me (by rwa [hme, hshape] at h)) (W := .mat)
    (fun h => setup_mat lower (by rwa [hfmt] at h)) FVal.fin _
    (fun name Λ => mat_written (.inl rfl) hfit FVal.fin name Λ hc1) survey.seeds
    (fun i Λ => ∀ g < N, Near (Λ g) ((q.snapshots - 1) * |q.timestep|)
      (σ i g) (stretchError2 (L * Δ) L B M q.timestep q.snapshots (groupOf seed 4 N 2 g))) mem
    (fun k i hi _ ht => survey.run he blends hseed hp resolved hsens hi ht k (mem i)) hst hH h₀ h hr
    order ho file i hi
  have hext : q.extension = ".mat" := by simp [Experiment.extension, hfmt]
  rw [hext] at g2
  refine ⟨first, saved, Λ, g1, g2, ?_, g4⟩
  simp only [hc2] at g3
  exact g3

end

end Verif
