import Verif.Props.ApiValues
import Verif.Props.Run64x3

/-!
# C114: calls of `AnalyticalSolver` in binary64

C111 is about exact arithmetic.  Here the seeds, the time step and the values of the velocity function
are binary64 numbers and every operation is rounded.
-/

namespace Verif

open Set Matrix

/-! ## Specification -/

/-- A steady flow `w`, a velocity function that computes `g` in binary64, `N` groups of `p` seeds in `d`
dimensions and `n` steps of `h`.  The seeds are carried along `X` by the exact flow; up to the distance
`r` from there `g` is within `ε + L · distance` of the true velocity; positions have size at most `W`;
the steps are small in the sense of `SmallSteps`, where every step has the rounding error of numbers of
that size. -/
structure Steady64 {d p : ℕ} (w : (Fin d → ℝ) → Fin d → ℝ) (g : (Fin d → Fl) → Fin d → Fl)
    (seed : NDArray Fl) (N n : ℕ) (h : Fl) (ε L B M r W : ℝ) (X : ℕ → Fin p → ℝ → Fin d → ℝ) :
    Prop where
  two : 2 ≤ n
  step : 2 ^ (-500 : ℤ) ≤ |h.re|
  span : ((n : ℝ) - 1) * |h.re| ≤ 2 ^ 999
  eps : 0 ≤ ε
  radius : 0 ≤ r
  small : SmallSteps (effError ε L (stepRounding W (B + ε + L * r) |h.re|) h.re) L B M h.re n r
  path : ∀ i < N, ∀ b, Along (fun _ => w) 0 h.re n B M (X i b) ∧
    X i b 0 = reVec (groupOf seed p N d i b) ∧ ∀ t ∈ uIcc 0 (n * h.re), ‖X i b t‖ + r ≤ W
  near : ∀ i < N, ∀ b, ∀ j < n, ∀ z, ‖reVec z - X i b (j * h.re)‖ ≤ r →
    ‖reVec (g z) - w (X i b (j * h.re))‖ ≤ ε + L * ‖reVec z - X i b (j * h.re)‖

/-- Error of the positions after the run. -/
noncomputable def steadyError (n : ℕ) (h : Fl) (ε L B M r W : ℝ) : ℝ :=
  posError (effError ε L (stepRounding W (B + ε + L * r) |h.re|) h.re) L B M h.re n

/-- The stretching of the exact differences of the exact positions, the distances of the seeds, and the
bound `b` for the error of the Jacobian: `e` is the error of the positions. -/
structure Stretch64 (seed : NDArray Fl) (N n : ℕ) (h : Fl) (e : ℝ) (X : ℕ → Fin 4 → ℝ → Fin 2 → ℝ)
    (D : ℕ → Matrix (Fin 2) (Fin 2) ℝ) (σ b : ℕ → ℝ) : Prop where
  apart : ∀ i < N,
    2 ^ (-500 : ℤ) ≤ |(groupOf seed 4 N 2 i 1 0).re - (groupOf seed 4 N 2 i 0 0).re| ∧
    2 ^ (-500 : ℤ) ≤ |(groupOf seed 4 N 2 i 2 1).re - (groupOf seed 4 N 2 i 3 1).re|
  diffs : ∀ i < N, D i = diffs2 (fun b => X i b (n * h.re)) (fun b => reVec (groupOf seed 4 N 2 i b))
  stretch : ∀ i < N, IsMaxStretch (D i) (σ i)
  bound : ∀ i < N, b i = 41 / 10 * e *
    (1 / |(groupOf seed 4 N 2 i 1 0).re - (groupOf seed 4 N 2 i 0 0).re| +
      1 / |(groupOf seed 4 N 2 i 2 1).re - (groupOf seed 4 N 2 i 3 1).re|) +
    2 ^ (-53 : ℤ) * (1 + 16 * σ i)
  room : ∀ i < N, b i + 2 ^ (-200 : ℤ) ≤ σ i

/-- The same for groups of six seeds. -/
structure Stretch64x3 (seed : NDArray Fl) (N n : ℕ) (h : Fl) (e : ℝ)
    (X : ℕ → Fin 6 → ℝ → Fin 3 → ℝ) (D : ℕ → Matrix (Fin 3) (Fin 3) ℝ) (σ b : ℕ → ℝ) : Prop where
  apart : ∀ i < N,
    2 ^ (-500 : ℤ) ≤ |(groupOf seed 6 N 3 i 1 0).re - (groupOf seed 6 N 3 i 0 0).re| ∧
    2 ^ (-500 : ℤ) ≤ |(groupOf seed 6 N 3 i 2 1).re - (groupOf seed 6 N 3 i 3 1).re| ∧
    2 ^ (-500 : ℤ) ≤ |(groupOf seed 6 N 3 i 4 2).re - (groupOf seed 6 N 3 i 5 2).re|
  diffs : ∀ i < N, D i = diffs3 (fun b => X i b (n * h.re)) (fun b => reVec (groupOf seed 6 N 3 i b))
  stretch : ∀ i < N, IsMaxStretch (D i) (σ i)
  bound : ∀ i < N, b i = 62 / 10 * e *
    (1 / |(groupOf seed 6 N 3 i 1 0).re - (groupOf seed 6 N 3 i 0 0).re| +
      1 / |(groupOf seed 6 N 3 i 2 1).re - (groupOf seed 6 N 3 i 3 1).re| +
      1 / |(groupOf seed 6 N 3 i 4 2).re - (groupOf seed 6 N 3 i 5 2).re|) +
    2 ^ (-53 : ℤ) * (1 + 36 * σ i)
  room : ∀ i < N, b i + 2 ^ (-200 : ℤ) ≤ σ i

/-- What C86 says of the values of `N` groups in 2-D. -/
def Good64 (N n : ℕ) (h : Fl) (κ : ℝ) (D : ℕ → Matrix (Fin 2) (Fin 2) ℝ) (σ b : ℕ → ℝ)
    (Λ : ℕ → Val64) : Prop :=
  ∀ i < N,
    (Λ i = .nan ∨ (Λ i).Within (1 / (((n : ℝ) - 1) * |h.re|) * Real.log (σ i))
      (1 / (((n : ℝ) - 1) * |h.re|) * (2 ^ (-22 : ℤ) + 102 / 100 * (b i / (σ i - b i)) +
        (κ + 2 ^ (-50 : ℤ)) * |Real.log (σ i)|))) ∧
    (|(D i).det| + b i * σ i + b i ^ 2 ≤ (1 - 2 ^ (-22 : ℤ)) * (σ i - b i) ^ 2 → Λ i ≠ .nan) ∧
    (|(D i).det| + b i * σ i + b i ^ 2 ≤ 1 / 2 * (σ i - b i) ^ 2 →
      (Λ i).Within (1 / (((n : ℝ) - 1) * |h.re|) * Real.log (σ i))
        (1 / (((n : ℝ) - 1) * |h.re|) * (2 ^ (-45 : ℤ) + 102 / 100 * (b i / (σ i - b i)) +
          (κ + 2 ^ (-50 : ℤ)) * |Real.log (σ i)|)))

/-- What C112 says of the values of `N` groups in 3-D. -/
def Good64x3 (N n : ℕ) (h : Fl) (κ μ : ℝ) (σ b : ℕ → ℝ) (Λ : ℕ → Val64) : Prop :=
  ∀ i < N, (Λ i).Within (1 / (((n : ℝ) - 1) * |h.re|) * Real.log (σ i))
    (1 / (((n : ℝ) - 1) * |h.re|) * (12 * μ + 2 ^ (-46 : ℤ) +
      102 / 100 * (b i / (σ i - b i)) + (κ + 2 ^ (-50 : ℤ)) * |Real.log (σ i)|))

/-! ## Lemmas -/

/-- The kernels return one value per matrix. -/
theorem perMatrix64 {env : Env Fl Val64} {m m' : Libm} {la : Linalg} (h2 : Env64 env m)
    (h3 : Env64x3 env m' la) : env.PerMatrix where
  two js T v h := by
    rw [h2.f2] at h
    unfold ftle64 at h
    simp only at h
    split_ifs at h
    cases h
    simp
  three js T v h := by
    rw [h3.f3] at h
    unfold ftle64x3 at h
    cases hm : pyMap (maxEig64x3 la) (js.map fun F => la.mul F Fᵀ) with
    | error e => simp [hm] at h
    | ok eigs =>
      rw [hm] at h
      simp only at h
      split_ifs at h
      cases h
      simpa using pyMap_ok_length hm

theorem analytical_updated64 {env : Env Fl Val64} {b : AnalyticalSource Fl} {fn : VelocityFn Fl} (n : ℕ) :
    (Source.analytical b).updated env (.analytical (.fresh (some fn))) n =
      (.analytical (.fresh (some fn)), none) := by
  induction n with
  | zero => rfl
  | succ n ih => simp only [Source.updated, ih, Source.updateInterp]

/-- One field in 2-D. -/
theorem steady64_2d {env : Env Fl Val64} {m : Libm} {κ : ℝ} (he : Env64 env m)
    (hm : m.Accurate κ) (hκ0 : 0 ≤ κ) (hκ : κ ≤ 1 / 100) (queue : Bool) (k : Kind)
    {w : (Fin 2 → ℝ) → Fin 2 → ℝ} {g : (Fin 2 → Fl) → Fin 2 → Fl} {seed : NDArray Fl} {N n : ℕ} {h : Fl}
    {ε L B M r W : ℝ} {X : ℕ → Fin 4 → ℝ → Fin 2 → ℝ} (hf : Steady64 w g seed N n h ε L B M r W X)
    {D : ℕ → Matrix (Fin 2) (Fin 2) ℝ} {σ b : ℕ → ℝ}
    (hD : Stretch64 seed N n h (steadyError n h ε L B M r W) X D σ b)
    (hs : seed.shape = [4 * N, 2]) {P : Particles Fl} (hp : mkParticles seed = .ok P)
    {fn : VelocityFn Fl} (hfn : Pointwise (4 * N) 2 (fn 0) g) {times : List Fl} (ht : times.length = n) :
    ∃ Λ : ℕ → Val64, ((⟨.analytical ⟨P, h, times⟩, .analytical (.fresh (some fn)), .fresh k⟩ :
        Solver Fl).run env queue none).result = .ok (some ((List.range N).map Λ)) ∧
      Good64 N n h κ D σ b Λ := by
  obtain ⟨t0, ts, rfl⟩ := List.exists_cons_of_ne_nil (l := times) (by
    rintro rfl
    have := hf.two
    simp at ht
    omega)
  have hpos : (0 : ℝ) < 2 ^ (-500 : ℤ) := by positivity
  set b' : ℕ → ℝ := fun i => 41 / 10 * steadyError n h ε L B M r W *
    (1 / |(groupOf seed 4 N 2 i 1 0).re - (groupOf seed 4 N 2 i 0 0).re| +
      1 / |(groupOf seed 4 N 2 i 2 1).re - (groupOf seed 4 N 2 i 3 1).re|) +
    2 ^ (-53 : ℤ) * (1 + 16 * σ i) with hb'
  have hbb : ∀ i < N, b' i = b i := fun i hi => (hD.bound i hi).symm
  obtain ⟨Λ, h1, h2⟩ := C86_binary64_2d he hm hκ0 hκ queue k (v := fun _ => w) (t0 := 0) (ε := ε) (L := L)
    (B := B) (M := M) (r := r) (W := W) (src := .analytical ⟨P, h, t0 :: ts⟩) (n := n) ht hf.two (h := h)
    rfl hf.step hf.span hf.eps hf.radius rfl hf.small hs hp rfl X
    (fun i hi b => by
      obtain ⟨p1, p2, p3⟩ := hf.path i hi b
      exact ⟨p1, p2, by rwa [zero_add]⟩)
    (I0 := .analytical (.fresh (some fn))) trivial rfl (fun i _ => by rw [analytical_updated64])
    (fun _ => g) (fun _ => univ)
    (fun j _ => by rw [analytical_updated64]; exact fun pos hp _ => hfn pos hp)
    (fun i hi b j hj z hz => ⟨mem_univ _, by
      rw [zero_add] at hz ⊢
      exact hf.near i hi b j hj z hz⟩)
    _ _ (fun i hi => ⟨rfl, rfl, hD.apart i hi⟩) D
    (fun i hi => by
      obtain ⟨a1, a2⟩ := hD.apart i hi
      rw [zero_add, centralDiff2_ok]
      exact ⟨⟨abs_pos.1 (hpos.trans_le a1), abs_pos.1 (hpos.trans_le a2)⟩, hD.diffs i hi⟩)
    σ b' (fun i => rfl) (fun i hi => ⟨hD.stretch i hi, by rw [hbb i hi]; exact hD.room i hi⟩)
  refine ⟨Λ, h1, fun i hi => ?_⟩
  have := h2 i hi
  rwa [hbb i hi] at this

/-- One field in 3-D. -/
theorem steady64_3d {env : Env Fl Val64} {m : Libm} {κ : ℝ} {la : Linalg} {μ : ℝ}
    (he : Env64x3 env m la) (hm : m.Accurate κ) (hκ0 : 0 ≤ κ) (hκ : κ ≤ 1 / 100)
    (ha : la.Accurate μ) (hμ0 : 0 ≤ μ) (hμ : μ ≤ 1 / 10 ^ 6) (queue : Bool) (k : Kind)
    {w : (Fin 3 → ℝ) → Fin 3 → ℝ} {g : (Fin 3 → Fl) → Fin 3 → Fl} {seed : NDArray Fl} {N n : ℕ} {h : Fl}
    {ε L B M r W : ℝ} {X : ℕ → Fin 6 → ℝ → Fin 3 → ℝ} (hf : Steady64 w g seed N n h ε L B M r W X)
    {D : ℕ → Matrix (Fin 3) (Fin 3) ℝ} {σ b : ℕ → ℝ}
    (hD : Stretch64x3 seed N n h (steadyError n h ε L B M r W) X D σ b)
    (hs : seed.shape = [6 * N, 3]) {P : Particles Fl} (hp : mkParticles seed = .ok P)
    {fn : VelocityFn Fl} (hfn : Pointwise (6 * N) 3 (fn 0) g) {times : List Fl} (ht : times.length = n) :
    ∃ Λ : ℕ → Val64, ((⟨.analytical ⟨P, h, times⟩, .analytical (.fresh (some fn)), .fresh k⟩ :
        Solver Fl).run env queue none).result = .ok (some ((List.range N).map Λ)) ∧
      Good64x3 N n h κ μ σ b Λ := by
  obtain ⟨t0, ts, rfl⟩ := List.exists_cons_of_ne_nil (l := times) (by
    rintro rfl
    have := hf.two
    simp at ht
    omega)
  have hpos : (0 : ℝ) < 2 ^ (-500 : ℤ) := by positivity
  set b' : ℕ → ℝ := fun i => 62 / 10 * steadyError n h ε L B M r W *
    (1 / |(groupOf seed 6 N 3 i 1 0).re - (groupOf seed 6 N 3 i 0 0).re| +
      1 / |(groupOf seed 6 N 3 i 2 1).re - (groupOf seed 6 N 3 i 3 1).re| +
      1 / |(groupOf seed 6 N 3 i 4 2).re - (groupOf seed 6 N 3 i 5 2).re|) +
    2 ^ (-53 : ℤ) * (1 + 36 * σ i) with hb'
  have hbb : ∀ i < N, b' i = b i := fun i hi => (hD.bound i hi).symm
  obtain ⟨Λ, h1, h2⟩ := C112_binary64_3d he hm hκ0 hκ ha hμ0 hμ queue k (v := fun _ => w) (t0 := 0) (ε := ε) (L := L)
    (B := B) (M := M) (r := r) (W := W) (src := .analytical ⟨P, h, t0 :: ts⟩) (n := n) ht hf.two (h := h)
    rfl hf.step hf.span hf.eps hf.radius rfl hf.small hs hp rfl X
    (fun i hi b => by
      obtain ⟨p1, p2, p3⟩ := hf.path i hi b
      exact ⟨p1, p2, by rwa [zero_add]⟩)
    (I0 := .analytical (.fresh (some fn))) trivial rfl (fun i _ => by rw [analytical_updated64])
    (fun _ => g) (fun _ => univ)
    (fun j _ => by rw [analytical_updated64]; exact fun pos hp _ => hfn pos hp)
    (fun i hi b j hj z hz => ⟨mem_univ _, by
      rw [zero_add] at hz ⊢
      exact hf.near i hi b j hj z hz⟩)
    _ _ _ (fun i hi => ⟨rfl, rfl, rfl, hD.apart i hi⟩) D
    (fun i hi => by
      obtain ⟨a1, a2, a3⟩ := hD.apart i hi
      rw [zero_add, centralDiff3_ok]
      exact ⟨⟨abs_pos.1 (hpos.trans_le a1), abs_pos.1 (hpos.trans_le a2), abs_pos.1 (hpos.trans_le a3)⟩, hD.diffs i hi⟩)
    σ b' (fun i => rfl) (fun i hi => ⟨hD.stretch i hi, by rw [hbb i hi]; exact hD.room i hi⟩)
  refine ⟨Λ, h1, fun i hi => ?_⟩
  have := h2 i hi
  rwa [hbb i hi] at this

/-! ## 2-D -/

section
variable {env : Env Fl Val64} {m : Libm} {la : Linalg} {κ : ℝ}
  {w : (Fin 2 → ℝ) → Fin 2 → ℝ} {g : (Fin 2 → Fl) → Fin 2 → Fl} {seed : NDArray Fl} {N n : ℕ} {h : Fl}
  {ε L B M r W : ℝ} {X : ℕ → Fin 4 → ℝ → Fin 2 → ℝ} {D : ℕ → Matrix (Fin 2) (Fin 2) ℝ} {σ b : ℕ → ℝ}

/-- **C114 (array, 2-D).**  A steady flow, a velocity function for it in binary64 (at the time 0) and
seeds as in `Steady64` and `Stretch64`.  Every call `AnalyticalSolver(...).run()` without output returns
(unless a process is killed), and what it returns is an array with one row for every start time whose
entries are as in C86: numbers near `(1/T) ln σ`, or NaN if the stretches of the group are nearly
equal. -/
theorem C114_array_2d (he : Env64 env m) (he3 : Env64x3 env m la) (hm : m.Accurate κ) (hκ0 : 0 ≤ κ)
    (hκ : κ ≤ 1 / 100) (hf : Steady64 w g seed N n h ε L B M r W X)
    (hD : Stretch64 seed N n h (steadyError n h ε L B M r W) X D σ b)
    (hs : seed.shape = [4 * N, 2]) {P : Particles Fl} (hp : mkParticles seed = .ok P)
    {fn : VelocityFn Fl} (hfn : Pointwise (4 * N) 2 (fn 0) g) {lower : String → String}
    (hl : lower "analytical" = "analytical") {k : Kind} {name format : String} {procs : ℤ} {M' : ℕ}
    (hM : 1 ≤ M') (hk : createIntegrator lower name = .ok k) {S : ApiSolver Fl Val64}
    (hS : ApiSolver.create lower fn P h (.ok n) M' name procs false format = .ok S)
    (mem : ℕ → List ℕ → Fl)
    {s₀ st : HostState (Shared Fl) (Option (List Val64) × List (Event Fl Val64))}
    {as : List (Action (Option (List Val64) × List (Event Fl Val64)))}
    (h₀ : (S.host env).init mem = .ok s₀) (hex : HostState.Exec (S.host env) mem s₀ as st) :
    (.crash ∉ as → ∃ bs st' rs, HostState.Exec (S.host env) mem s₀ (as ++ bs) st' ∧
      st'.pool.phase = .returned rs) ∧
    ∀ rs, st.pool.phase = .returned rs → ∃ Λ : ℕ → ℕ → Val64,
      (∀ i, Good64 N n h κ D σ b (Λ i)) ∧
      S.outcome st = some (.ok (if M' = 1 then .field ((List.range N).map (Λ 0))
        else .stack ((List.range M').map fun i => (List.range N).map (Λ i)))) := by
  obtain ⟨c1, c2, c3, c4, c5, -, ⟨k', c6, c7⟩, c8, -⟩ := C65_constructor lower hl _ _ _ _ _ _ _ _ _ _ hS
  rw [hk] at c6
  cases c6
  have e5 : S.numSnapshots = n := (Except.ok.inj c5).symm
  choose Λ h1 h2 using fun i => steady64_2d (env := { env with junk := mem i }) ⟨he.abs, he.f2⟩ hm hκ0 hκ
    true k hf hD hs hp hfn (times := (startBatch S i).times) (by simp [startBatch, e5])
  have hb : ∀ i, startBatch S i = ⟨P, h, (startBatch S i).times⟩ := fun i => by
    rw [startBatch, c2, c3]
  obtain ⟨r1, r2⟩ := array_of_tasks (perMatrix64 he he3) c7 (c8 rfl) (.inl rfl) hs (by rw [c2]; exact hp)
    hM c4 (mem := mem) (row := fun i => (List.range N).map (Λ i)) (fun i => by
      unfold aloneRun
      rw [hb i, c1]
      exact h1 i) h₀ hex
  exact ⟨r1, fun rs hr => ⟨Λ, h2, r2 rs hr⟩⟩

/-- **C114 (files, 2-D).**  The same with output: the files of the call are in its folder, under the
names of the start times, and each holds such values beside the centroids of the groups. -/
theorem C114_files_2d {α : Type} (he : Env64 env m) (he3 : Env64x3 env m la) (hm : m.Accurate κ)
    (hκ0 : 0 ≤ κ) (hκ : κ ≤ 1 / 100) (hf : Steady64 w g seed N n h ε L B M r W X)
    (hD : Stretch64 seed N n h (steadyError n h ε L B M r W) X D σ b)
    (hs : seed.shape = [4 * N, 2]) {P : Particles Fl} (hp : mkParticles seed = .ok P)
    {fn : VelocityFn Fl} (hfn : Pointwise (4 * N) 2 (fn 0) g) {lower : String → String}
    (hl : lower "analytical" = "analytical") {k : Kind} {iname format : String} {procs : ℤ} {M' : ℕ}
    (hk : createIntegrator lower iname = .ok k) {name : Option PathStr} {now : WallClock} {d : Disk α}
    {S : ApiSolver Fl Val64} {wr : Writer} {folder : PathStr}
    (hstart : (startApi lower fn P h (.ok n) M' iname procs true format name now d).2.2 =
      .ok (S, some (wr, folder)))
    (hfol : apiFolder name now ≠ []) (hslash : ∀ i < M', '/' ∉ (env.timeName (startTime h i)).toList)
    (hnames : ((List.range M').map fun i => env.timeName (startTime h i)).Nodup)
    (htakes : d.Takes (apiFolder name now) ((List.range M').map (apiFileName env.timeName h format)))
    (mem : ℕ → List ℕ → Fl)
    {s₀ st : HostState (Shared Fl) (Option (List Val64) × List (Event Fl Val64))}
    {as : List (Action (Option (List Val64) × List (Event Fl Val64)))}
    (h₀ : (S.host env).init mem = .ok s₀) (hex : HostState.Exec (S.host env) mem s₀ as st) :
    (.crash ∉ as → ∃ bs st' rs, HostState.Exec (S.host env) mem s₀ (as ++ bs) st' ∧
      st'.pool.phase = .returned rs) ∧
    ∀ rs, st.pool.phase = .returned rs → ∀ (order : List ℕ), order.Perm (List.range M') →
      ∀ file : Saved Fl Val64 → α,
      S.outcome st = some (.ok .none) ∧
      ∀ i < M', ∃ saved Λ, Good64 N n h κ D σ b Λ ∧
        saved.Says (apiRecords format seed N 2 ((List.range N).map Λ)) ∧
        ((startApi (F := Val64) lower fn P h (.ok n) M' iname procs true format name now
            d).1.writeFiles folder (apiFiles wr file rs order)).1.node
          (d.target (apiFolder name now) ++ [apiFileName env.timeName h format i]) =
          some (.file (file saved)) := by
  obtain ⟨-, hcreate, -⟩ := startApi_ok lower hl hstart
  obtain ⟨c1, c2, c3, c4, c5, -⟩ := C65_constructor lower hl _ _ _ _ _ _ _ _ _ _ hcreate
  have e5 : S.numSnapshots = n := (Except.ok.inj c5).symm
  choose Λ h1 h2 using fun i => steady64_2d (env := { env with junk := mem i }) ⟨he.abs, he.f2⟩ hm hκ0 hκ
    true k hf hD hs hp hfn (times := (startBatch S i).times) (by simp [startBatch, e5])
  have hb : ∀ i, startBatch S i = ⟨P, h, (startBatch S i).times⟩ := fun i => by
    rw [startBatch, c2, c3]
  have hrun : ∀ i, (aloneRun { env with junk := mem i } none (.analytical (startBatch S i))
      (.analytical (.fresh (some fn))) k).result = .ok (some ((List.range N).map (Λ i))) := fun i => by
    unfold aloneRun
    rw [hb i]
    exact h1 i
  have hpm := perMatrix64 he he3
  refine ⟨fun hc => ?_, fun rs hr order ho file => ?_⟩
  · refine C107_completes lower hl hstart env hpm (.inl rfl) hs hp mem (fun kind hkind i _ => ?_) h₀ hex hc
    obtain rfl := Except.ok.inj (hk.symm.trans hkind)
    exact ⟨_, hrun i⟩
  · obtain ⟨q1, -, -, ⟨kind, hkind, q2⟩, -⟩ := C107_saved lower hl hstart env hpm (.inl rfl) hs
      hp hfol hslash hnames htakes mem h₀ hex hr order ho file
    obtain rfl := Except.ok.inj (hk.symm.trans hkind)
    refine ⟨q1, fun i hi => ?_⟩
    obtain ⟨field, saved, f1, f2, f3⟩ := q2 i hi
    rw [hrun i] at f1
    cases f1
    exact ⟨saved, Λ i, h2 i, f2, f3⟩

end

/-! ## 3-D -/

section
variable {env : Env Fl Val64} {m : Libm} {la : Linalg} {κ μ : ℝ}
  {w : (Fin 3 → ℝ) → Fin 3 → ℝ} {g : (Fin 3 → Fl) → Fin 3 → Fl} {seed : NDArray Fl} {N n : ℕ} {h : Fl}
  {ε L B M r W : ℝ} {X : ℕ → Fin 6 → ℝ → Fin 3 → ℝ} {D : ℕ → Matrix (Fin 3) (Fin 3) ℝ} {σ b : ℕ → ℝ}

/-- **C114 (array, 3-D).**  A steady flow, a velocity function for it in binary64 (at the time 0) and
seeds as in `Steady64` and `Stretch64x3`.  Every call `AnalyticalSolver(...).run()` without output returns
(unless a process is killed), and what it returns is an array with one row for every start time whose
entries are as in C112: numbers near `(1/T) ln σ`. -/
theorem C114_array_3d (he : Env64 env m) (he3 : Env64x3 env m la) (hm : m.Accurate κ) (hκ0 : 0 ≤ κ)
    (hκ : κ ≤ 1 / 100) (ha : la.Accurate μ) (hμ0 : 0 ≤ μ) (hμ : μ ≤ 1 / 10 ^ 6)
    (hf : Steady64 w g seed N n h ε L B M r W X)
    (hD : Stretch64x3 seed N n h (steadyError n h ε L B M r W) X D σ b)
    (hs : seed.shape = [6 * N, 3]) {P : Particles Fl} (hp : mkParticles seed = .ok P)
    {fn : VelocityFn Fl} (hfn : Pointwise (6 * N) 3 (fn 0) g) {lower : String → String}
    (hl : lower "analytical" = "analytical") {k : Kind} {name format : String} {procs : ℤ} {M' : ℕ}
    (hM : 1 ≤ M') (hk : createIntegrator lower name = .ok k) {S : ApiSolver Fl Val64}
    (hS : ApiSolver.create lower fn P h (.ok n) M' name procs false format = .ok S)
    (mem : ℕ → List ℕ → Fl)
    {s₀ st : HostState (Shared Fl) (Option (List Val64) × List (Event Fl Val64))}
    {as : List (Action (Option (List Val64) × List (Event Fl Val64)))}
    (h₀ : (S.host env).init mem = .ok s₀) (hex : HostState.Exec (S.host env) mem s₀ as st) :
    (.crash ∉ as → ∃ bs st' rs, HostState.Exec (S.host env) mem s₀ (as ++ bs) st' ∧
      st'.pool.phase = .returned rs) ∧
    ∀ rs, st.pool.phase = .returned rs → ∃ Λ : ℕ → ℕ → Val64,
      (∀ i, Good64x3 N n h κ μ σ b (Λ i)) ∧
      S.outcome st = some (.ok (if M' = 1 then .field ((List.range N).map (Λ 0))
        else .stack ((List.range M').map fun i => (List.range N).map (Λ i)))) := by
  obtain ⟨c1, c2, c3, c4, c5, -, ⟨k', c6, c7⟩, c8, -⟩ := C65_constructor lower hl _ _ _ _ _ _ _ _ _ _ hS
  rw [hk] at c6
  cases c6
  have e5 : S.numSnapshots = n := (Except.ok.inj c5).symm
  choose Λ h1 h2 using fun i => steady64_3d (env := { env with junk := mem i }) ⟨he3.abs, he3.f3⟩ hm hκ0 hκ
    ha hμ0 hμ true k hf hD hs hp hfn (times := (startBatch S i).times) (by simp [startBatch, e5])
  have hb : ∀ i, startBatch S i = ⟨P, h, (startBatch S i).times⟩ := fun i => by
    rw [startBatch, c2, c3]
  obtain ⟨r1, r2⟩ := array_of_tasks (perMatrix64 he he3) c7 (c8 rfl) (.inr rfl) hs (by rw [c2]; exact hp)
    hM c4 (mem := mem) (row := fun i => (List.range N).map (Λ i)) (fun i => by
      unfold aloneRun
      rw [hb i, c1]
      exact h1 i) h₀ hex
  exact ⟨r1, fun rs hr => ⟨Λ, h2, r2 rs hr⟩⟩

/-- **C114 (files, 3-D).**  The same with output: the files of the call are in its folder, under the
names of the start times, and each holds such values beside the centroids of the groups. -/
theorem C114_files_3d {α : Type} (he : Env64 env m) (he3 : Env64x3 env m la) (hm : m.Accurate κ)
    (hκ0 : 0 ≤ κ) (hκ : κ ≤ 1 / 100) (ha : la.Accurate μ) (hμ0 : 0 ≤ μ) (hμ : μ ≤ 1 / 10 ^ 6)
    (hf : Steady64 w g seed N n h ε L B M r W X)
    (hD : Stretch64x3 seed N n h (steadyError n h ε L B M r W) X D σ b)
    (hs : seed.shape = [6 * N, 3]) {P : Particles Fl} (hp : mkParticles seed = .ok P)
    {fn : VelocityFn Fl} (hfn : Pointwise (6 * N) 3 (fn 0) g) {lower : String → String}
    (hl : lower "analytical" = "analytical") {k : Kind} {iname format : String} {procs : ℤ} {M' : ℕ}
    (hk : createIntegrator lower iname = .ok k) {name : Option PathStr} {now : WallClock} {d : Disk α}
    {S : ApiSolver Fl Val64} {wr : Writer} {folder : PathStr}
    (hstart : (startApi lower fn P h (.ok n) M' iname procs true format name now d).2.2 =
      .ok (S, some (wr, folder)))
    (hfol : apiFolder name now ≠ []) (hslash : ∀ i < M', '/' ∉ (env.timeName (startTime h i)).toList)
    (hnames : ((List.range M').map fun i => env.timeName (startTime h i)).Nodup)
    (htakes : d.Takes (apiFolder name now) ((List.range M').map (apiFileName env.timeName h format)))
    (mem : ℕ → List ℕ → Fl)
    {s₀ st : HostState (Shared Fl) (Option (List Val64) × List (Event Fl Val64))}
    {as : List (Action (Option (List Val64) × List (Event Fl Val64)))}
    (h₀ : (S.host env).init mem = .ok s₀) (hex : HostState.Exec (S.host env) mem s₀ as st) :
    (.crash ∉ as → ∃ bs st' rs, HostState.Exec (S.host env) mem s₀ (as ++ bs) st' ∧
      st'.pool.phase = .returned rs) ∧
    ∀ rs, st.pool.phase = .returned rs → ∀ (order : List ℕ), order.Perm (List.range M') →
      ∀ file : Saved Fl Val64 → α,
      S.outcome st = some (.ok .none) ∧
      ∀ i < M', ∃ saved Λ, Good64x3 N n h κ μ σ b Λ ∧
        saved.Says (apiRecords format seed N 3 ((List.range N).map Λ)) ∧
        ((startApi (F := Val64) lower fn P h (.ok n) M' iname procs true format name now
            d).1.writeFiles folder (apiFiles wr file rs order)).1.node
          (d.target (apiFolder name now) ++ [apiFileName env.timeName h format i]) =
          some (.file (file saved)) := by
  obtain ⟨-, hcreate, -⟩ := startApi_ok lower hl hstart
  obtain ⟨c1, c2, c3, c4, c5, -⟩ := C65_constructor lower hl _ _ _ _ _ _ _ _ _ _ hcreate
  have e5 : S.numSnapshots = n := (Except.ok.inj c5).symm
  choose Λ h1 h2 using fun i => steady64_3d (env := { env with junk := mem i }) ⟨he3.abs, he3.f3⟩ hm hκ0 hκ
    ha hμ0 hμ true k hf hD hs hp hfn (times := (startBatch S i).times) (by simp [startBatch, e5])
  have hb : ∀ i, startBatch S i = ⟨P, h, (startBatch S i).times⟩ := fun i => by
    rw [startBatch, c2, c3]
  have hrun : ∀ i, (aloneRun { env with junk := mem i } none (.analytical (startBatch S i))
      (.analytical (.fresh (some fn))) k).result = .ok (some ((List.range N).map (Λ i))) := fun i => by
    unfold aloneRun
    rw [hb i]
    exact h1 i
  have hpm := perMatrix64 he he3
  refine ⟨fun hc => ?_, fun rs hr order ho file => ?_⟩
  · refine C107_completes lower hl hstart env hpm (.inr rfl) hs hp mem (fun kind hkind i _ => ?_) h₀ hex hc
    obtain rfl := Except.ok.inj (hk.symm.trans hkind)
    exact ⟨_, hrun i⟩
  · obtain ⟨q1, -, -, ⟨kind, hkind, q2⟩, -⟩ := C107_saved lower hl hstart env hpm (.inr rfl) hs
      hp hfol hslash hnames htakes mem h₀ hex hr order ho file
    obtain rfl := Except.ok.inj (hk.symm.trans hkind)
    refine ⟨q1, fun i hi => ?_⟩
    obtain ⟨field, saved, f1, f2, f3⟩ := q2 i hi
    rw [hrun i] at f1
    cases f1
    exact ⟨saved, Λ i, h2 i, f2, f3⟩

end

end Verif
