import Verif.Props.ApiDisk
import Verif.Lemmas.SteadyFlow
import Verif.Spec.Survey
import Verif.Props.EndToEnd
import Mathlib.Analysis.SpecialFunctions.Trigonometric.Deriv
import Mathlib.Analysis.SpecialFunctions.Trigonometric.Bounds

/-!
# C111: from a velocity function to accurate arrays and files

Calls of `AnalyticalSolver` for a steady flow, with and without output.
-/

namespace Verif

open Set
open scoped NNReal

/-- The values `Λ` of `N` groups of four seeds are accurate: each is near the logarithm of the maximal
stretching of the differences of the positions to which the flow `Z` carries the seeds of the group in
`n` steps of `h`, divided by the period `(n - 1)|h|`. -/
def Accurate2 (Z : (Fin 2 → ℝ) → ℝ → Fin 2 → ℝ) (seed : NDArray ℝ) (N : ℕ) (k : Kind) (C : ℝ) (n : ℕ)
    (h : ℝ) (Λ : ℕ → ℝ) : Prop :=
  ∀ i < N, ∃ σ, IsMaxStretch (diffs2 (fun b => Z (groupOf seed 4 N 2 i b) (n * h))
      (groupOf seed 4 N 2 i)) σ ∧ 0 < σ ∧
    |Λ i - 1 / (((n : ℝ) - 1) * |h|) * Real.log σ| ≤
      1 / (((n : ℝ) - 1) * |h|) * (C * |h| ^ documentedOrder k)

/-- The same for groups of six seeds. -/
def Accurate3 (Z : (Fin 3 → ℝ) → ℝ → Fin 3 → ℝ) (seed : NDArray ℝ) (N : ℕ) (k : Kind) (C : ℝ) (n : ℕ)
    (h : ℝ) (Λ : ℕ → ℝ) : Prop :=
  ∀ i < N, ∃ σ, IsMaxStretch (diffs3 (fun b => Z (groupOf seed 6 N 3 i b) (n * h))
      (groupOf seed 6 N 3 i)) σ ∧ 0 < σ ∧
    |Λ i - 1 / (((n : ℝ) - 1) * |h|) * Real.log σ| ≤
      1 / (((n : ℝ) - 1) * |h|) * (C * |h| ^ documentedOrder k)

/-- A call without output whose tasks all succeed: it returns the rows of the tasks. -/
theorem array_of_tasks {K F : Type} [Zero K] [One K] [Add K] [Sub K] [Mul K] [Div K] [NatCast K]
    [IntCast K] [Min K] [Max K] [NumLits K] [DecidableEq K] {env : Env K F} (he : env.PerMatrix) {S : ApiSolver K F} {k : Kind}
    (hk : S.integ = Integ.fresh k) (hw : S.writer = none) {seeds : NDArray K} {N d : ℕ}
    (hd : d = 2 ∨ d = 3) (hs : seeds.shape = [2 * d * N, d]) (hp : mkParticles seeds = .ok S.particles)
    {M : ℕ} (hM : 1 ≤ M) (hn : S.numFtles = M) {mem : ℕ → List ℕ → K} {row : ℕ → List F}
    (hrow : ∀ i, (aloneRun { env with junk := mem i } none (.analytical (startBatch S i)) S.interp
      k).result = .ok (some (row i)))
    {s₀ s : HostState (Shared K) (Option (List F) × List (Event K F))}
    {as : List (Action (Option (List F) × List (Event K F)))}
    (h₀ : (S.host env).init mem = .ok s₀) (h : HostState.Exec (S.host env) mem s₀ as s) :
    (.crash ∉ as → ∃ bs s' rs, HostState.Exec (S.host env) mem s₀ (as ++ bs) s' ∧
      s'.pool.phase = .returned rs) ∧
    ∀ rs, s.pool.phase = .returned rs → S.outcome s =
      some (.ok (if M = 1 then .field (row 0) else .stack ((List.range M).map row))) := by
  refine ⟨fun hc => C65_returns env S k hk M hn mem (fun i _ => ?_) h₀ h hc, fun rs hr => ?_⟩
  · rw [hw]
    exact ⟨_, hrow i⟩
  · rcases Nat.lt_or_ge 1 M with h2 | h2
    · obtain ⟨rows, r1, r2, r3⟩ := C65_stack env he S k hk hw hd hs hp M hn h2 mem h₀ h hr
      rw [r1, if_neg (by omega)]
      congr 3
      refine List.ext_getElem? fun i => ?_
      rcases Nat.lt_or_ge i M with hi | hi
      · obtain ⟨row', q1, -, q3⟩ := r3 i hi
        rw [hrow i] at q3
        cases q3
        rw [q1, List.getElem?_map, List.getElem?_range hi]
        rfl
      · rw [List.getElem?_eq_none (by omega), List.getElem?_eq_none (by simpa using hi)]
    · obtain rfl : M = 1 := by omega
      obtain ⟨row', r1, -, r3⟩ := C65_single env he S k hk hw hd hs hp hn mem h₀ h hr
      rw [hrow 0] at r3
      cases r3
      rw [r1, if_pos rfl]

/-! ## 2-D -/

section
variable {w : (Fin 2 → ℝ) → Fin 2 → ℝ} {K L : ℝ≥0}

/-- **C111 (array, 2-D).**  A steady velocity `w` that is smooth, bounded and Lipschitz; `N` groups of
seeds with differences in the directions of the axes.  Its flow `Z` exists, and there are constants such
that every call `AnalyticalSolver(...).run()` without output, with a velocity function that is `w` at the
time 0, at least two steps `|h| ≤ η` and `n |h| ≤ T`, returns (unless a process is killed), and what it
returns are accurate values of `Z`. -/
theorem C111_array_2d (k : Kind) (hw : SmoothEnough k fun _ => w) (hK : LipschitzWith K w)
    (hL : ∀ x, ‖w x‖ ≤ L) {T : ℝ} (hT : 0 ≤ T) {N : ℕ} {seed : NDArray ℝ}
    (hseed : seed.shape = [4 * N, 2]) {P : Particles ℝ} (hp : mkParticles seed = .ok P)
    (hg : ∀ i < N, groupOf seed 4 N 2 i 1 0 ≠ groupOf seed 4 N 2 i 0 0 ∧
      groupOf seed 4 N 2 i 2 1 ≠ groupOf seed 4 N 2 i 3 1) :
    ∃ Z : (Fin 2 → ℝ) → ℝ → Fin 2 → ℝ,
      (∀ c, IsTrajectory (fun _ => w) (Icc (-T) T) (Z c) ∧ Z c 0 = c) ∧
      ∃ C η, 0 < η ∧ ∀ (env : Env ℝ FVal), RealEnv env → ∀ fn : VelocityFn ℝ,
        Pointwise (4 * N) 2 (fn 0) w → ∀ (lower : String → String) (name format : String) (procs : ℤ)
        (h : ℝ) (n M : ℕ) (S : ApiSolver ℝ FVal), lower "analytical" = "analytical" →
        createIntegrator lower name = .ok k →
        ApiSolver.create lower fn P h (.ok n) M name procs false format = .ok S →
        1 ≤ M → 2 ≤ n → h ≠ 0 → |h| ≤ η → n * |h| ≤ T → ∀ (mem : ℕ → List ℕ → ℝ)
        (s₀ st : HostState (Shared ℝ) (Option (List FVal) × List (Event ℝ FVal)))
        (as : List (Action (Option (List FVal) × List (Event ℝ FVal)))),
        (S.host env).init mem = .ok s₀ → HostState.Exec (S.host env) mem s₀ as st →
        (.crash ∉ as → ∃ bs st' rs, HostState.Exec (S.host env) mem s₀ (as ++ bs) st' ∧
          st'.pool.phase = .returned rs) ∧
        ∀ rs, st.pool.phase = .returned rs → ∃ Λ : ℕ → ℕ → ℝ,
          (∀ i, Accurate2 Z seed N k C n h (Λ i)) ∧
          S.outcome st = some (.ok (if M = 1 then .field ((List.range N).map fun q => .fin (Λ 0 q))
            else .stack ((List.range M).map fun i => (List.range N).map fun q => .fin (Λ i q)))) := by
  choose Z hZ using fun c => exists_trajectory hK hL hT c
  refine ⟨Z, hZ, ?_⟩
  obtain ⟨C, η, hη, H⟩ := steady_values_2d k hw hK hT Z hZ hseed hp hg
  refine ⟨C, η, hη, ?_⟩
  intro env he fn hfn lower name format procs h n M S hl hk hS hM hn hh0 hhη hnT mem s₀ st as h₀ hex
  obtain ⟨c1, c2, c3, c4, c5, -, ⟨k', c6, c7⟩, c8, -⟩ := C65_constructor lower hl _ _ _ _ _ _ _ _ _ _ hS
  rw [hk] at c6
  cases c6
  have e5 : S.numSnapshots = n := (Except.ok.inj c5).symm
  choose Λ σ h1 h2 using fun i => H { env with junk := mem i } ⟨he.abs, he.f2, he.f3⟩ true fn hfn
    (startBatch S i).times n h (by simp [startBatch, e5]) hn hh0 hhη hnT
  have hb : ∀ i, startBatch S i = ⟨P, h, (startBatch S i).times⟩ := fun i => by
    rw [startBatch, c2, c3]
  obtain ⟨r1, r2⟩ := array_of_tasks he.perMatrix c7 (c8 rfl) (.inl rfl) hseed (by rw [c2]; exact hp)
    hM c4 (mem := mem) (row := fun i => (List.range N).map fun q => .fin (Λ i q)) (fun i => by
      unfold aloneRun
      rw [hb i, c1]
      exact h1 i) h₀ hex
  exact ⟨r1, fun rs hr => ⟨Λ, fun i q hq => ⟨σ i q, h2 i q hq⟩, r2 rs hr⟩⟩

/-- **C111 (files, 2-D).**  The same with output: the files of the call are in its folder, under the
names of the start times, and each holds accurate values of `Z` beside the centroids of the groups. -/
theorem C111_files_2d (k : Kind) (hw : SmoothEnough k fun _ => w) (hK : LipschitzWith K w)
    (hL : ∀ x, ‖w x‖ ≤ L) {T : ℝ} (hT : 0 ≤ T) {N : ℕ} {seed : NDArray ℝ}
    (hseed : seed.shape = [4 * N, 2]) {P : Particles ℝ} (hp : mkParticles seed = .ok P)
    (hg : ∀ i < N, groupOf seed 4 N 2 i 1 0 ≠ groupOf seed 4 N 2 i 0 0 ∧
      groupOf seed 4 N 2 i 2 1 ≠ groupOf seed 4 N 2 i 3 1) :
    ∃ Z : (Fin 2 → ℝ) → ℝ → Fin 2 → ℝ,
      (∀ c, IsTrajectory (fun _ => w) (Icc (-T) T) (Z c) ∧ Z c 0 = c) ∧
      ∃ C η, 0 < η ∧ ∀ (env : Env ℝ FVal), RealEnv env → ∀ fn : VelocityFn ℝ,
        Pointwise (4 * N) 2 (fn 0) w → ∀ (α : Type) (lower : String → String) (iname format : String)
        (procs : ℤ) (h : ℝ) (n M : ℕ) (name : Option PathStr) (now : WallClock) (d : Disk α)
        (S : ApiSolver ℝ FVal) (wr : Writer) (folder : PathStr), lower "analytical" = "analytical" →
        createIntegrator lower iname = .ok k →
        (startApi lower fn P h (.ok n) M iname procs true format name now d).2.2 =
          .ok (S, some (wr, folder)) →
        apiFolder name now ≠ [] → (∀ i < M, '/' ∉ (env.timeName (startTime h i)).toList) →
        ((List.range M).map fun i => env.timeName (startTime h i)).Nodup →
        d.Takes (apiFolder name now) ((List.range M).map (apiFileName env.timeName h format)) →
        2 ≤ n → h ≠ 0 → |h| ≤ η → n * |h| ≤ T → ∀ (mem : ℕ → List ℕ → ℝ)
        (s₀ st : HostState (Shared ℝ) (Option (List FVal) × List (Event ℝ FVal)))
        (as : List (Action (Option (List FVal) × List (Event ℝ FVal)))),
        (S.host env).init mem = .ok s₀ → HostState.Exec (S.host env) mem s₀ as st →
        (.crash ∉ as → ∃ bs st' rs, HostState.Exec (S.host env) mem s₀ (as ++ bs) st' ∧
          st'.pool.phase = .returned rs) ∧
        ∀ rs, st.pool.phase = .returned rs → ∀ (order : List ℕ), order.Perm (List.range M) →
          ∀ file : Saved ℝ FVal → α,
          S.outcome st = some (.ok .none) ∧
          ∀ i < M, ∃ saved Λ, Accurate2 Z seed N k C n h Λ ∧
            saved.Says (apiRecords format seed N 2 ((List.range N).map fun q => .fin (Λ q))) ∧
            ((startApi (F := FVal) lower fn P h (.ok n) M iname procs true format name now
                d).1.writeFiles folder (apiFiles wr file rs order)).1.node
              (d.target (apiFolder name now) ++ [apiFileName env.timeName h format i]) =
              some (.file (file saved)) := by
  choose Z hZ using fun c => exists_trajectory hK hL hT c
  refine ⟨Z, hZ, ?_⟩
  obtain ⟨C, η, hη, H⟩ := steady_values_2d k hw hK hT Z hZ hseed hp hg
  refine ⟨C, η, hη, ?_⟩
  intro env he fn hfn α lower iname format procs h n M name now d S wr folder hl hk hstart hfol hslash
    hnames htakes hn hh0 hhη hnT mem s₀ st as h₀ hex
  obtain ⟨-, hcreate, -⟩ := startApi_ok lower hl hstart
  obtain ⟨c1, c2, c3, c4, c5, -⟩ := C65_constructor lower hl _ _ _ _ _ _ _ _ _ _ hcreate
  have e5 : S.numSnapshots = n := (Except.ok.inj c5).symm
  choose Λ σ h1 h2 using fun i => H { env with junk := mem i } ⟨he.abs, he.f2, he.f3⟩ true fn hfn
    (startBatch S i).times n h (by simp [startBatch, e5]) hn hh0 hhη hnT
  have hb : ∀ i, startBatch S i = ⟨P, h, (startBatch S i).times⟩ := fun i => by
    rw [startBatch, c2, c3]
  have hrun : ∀ i, (aloneRun { env with junk := mem i } none (.analytical (startBatch S i))
      (.analytical (.fresh (some fn))) k).result =
        .ok (some ((List.range N).map fun q => .fin (Λ i q))) := fun i => by
    unfold aloneRun
    rw [hb i]
    exact h1 i
  refine ⟨fun hc => ?_, fun rs hr order ho file => ?_⟩
  · refine C107_completes lower hl hstart env he.perMatrix (.inl rfl) hseed hp mem
      (fun kind hkind i _ => ?_) h₀ hex hc
    obtain rfl := Except.ok.inj (hk.symm.trans hkind)
    exact ⟨_, hrun i⟩
  · obtain ⟨q1, -, -, ⟨kind, hkind, q2⟩, -⟩ := C107_saved lower hl hstart env he.perMatrix (.inl rfl) hseed
      hp hfol hslash hnames htakes mem h₀ hex hr order ho file
    obtain rfl := Except.ok.inj (hk.symm.trans hkind)
    refine ⟨q1, fun i hi => ?_⟩
    obtain ⟨field, saved, f1, f2, f3⟩ := q2 i hi
    rw [hrun i] at f1
    cases f1
    exact ⟨saved, Λ i, fun q hq => ⟨σ i q, h2 i q hq⟩, f2, f3⟩

end

/-! ## 3-D -/

section
variable {w : (Fin 3 → ℝ) → Fin 3 → ℝ} {K L : ℝ≥0}

/-- **C111 (array, 3-D).**  A steady velocity `w` that is smooth, bounded and Lipschitz; `N` groups of
seeds with differences in the directions of the axes.  Its flow `Z` exists, and there are constants such
that every call `AnalyticalSolver(...).run()` without output, with a velocity function that is `w` at the
time 0, at least two steps `|h| ≤ η` and `n |h| ≤ T`, returns (unless a process is killed), and what it
returns are accurate values of `Z`. -/
theorem C111_array_3d (k : Kind) (hw : SmoothEnough k fun _ => w) (hK : LipschitzWith K w)
    (hL : ∀ x, ‖w x‖ ≤ L) {T : ℝ} (hT : 0 ≤ T) {N : ℕ} {seed : NDArray ℝ}
    (hseed : seed.shape = [6 * N, 3]) {P : Particles ℝ} (hp : mkParticles seed = .ok P)
    (hg : ∀ i < N, groupOf seed 6 N 3 i 1 0 ≠ groupOf seed 6 N 3 i 0 0 ∧
      groupOf seed 6 N 3 i 2 1 ≠ groupOf seed 6 N 3 i 3 1 ∧
      groupOf seed 6 N 3 i 4 2 ≠ groupOf seed 6 N 3 i 5 2) :
    ∃ Z : (Fin 3 → ℝ) → ℝ → Fin 3 → ℝ,
      (∀ c, IsTrajectory (fun _ => w) (Icc (-T) T) (Z c) ∧ Z c 0 = c) ∧
      ∃ C η, 0 < η ∧ ∀ (env : Env ℝ FVal), RealEnv env → ∀ fn : VelocityFn ℝ,
        Pointwise (6 * N) 3 (fn 0) w → ∀ (lower : String → String) (name format : String) (procs : ℤ)
        (h : ℝ) (n M : ℕ) (S : ApiSolver ℝ FVal), lower "analytical" = "analytical" →
        createIntegrator lower name = .ok k →
        ApiSolver.create lower fn P h (.ok n) M name procs false format = .ok S →
        1 ≤ M → 2 ≤ n → h ≠ 0 → |h| ≤ η → n * |h| ≤ T → ∀ (mem : ℕ → List ℕ → ℝ)
        (s₀ st : HostState (Shared ℝ) (Option (List FVal) × List (Event ℝ FVal)))
        (as : List (Action (Option (List FVal) × List (Event ℝ FVal)))),
        (S.host env).init mem = .ok s₀ → HostState.Exec (S.host env) mem s₀ as st →
        (.crash ∉ as → ∃ bs st' rs, HostState.Exec (S.host env) mem s₀ (as ++ bs) st' ∧
          st'.pool.phase = .returned rs) ∧
        ∀ rs, st.pool.phase = .returned rs → ∃ Λ : ℕ → ℕ → ℝ,
          (∀ i, Accurate3 Z seed N k C n h (Λ i)) ∧
          S.outcome st = some (.ok (if M = 1 then .field ((List.range N).map fun q => .fin (Λ 0 q))
            else .stack ((List.range M).map fun i => (List.range N).map fun q => .fin (Λ i q)))) := by
  choose Z hZ using fun c => exists_trajectory hK hL hT c
  refine ⟨Z, hZ, ?_⟩
  obtain ⟨C, η, hη, H⟩ := steady_values_3d k hw hK hT Z hZ hseed hp hg
  refine ⟨C, η, hη, ?_⟩
  intro env he fn hfn lower name format procs h n M S hl hk hS hM hn hh0 hhη hnT mem s₀ st as h₀ hex
  obtain ⟨c1, c2, c3, c4, c5, -, ⟨k', c6, c7⟩, c8, -⟩ := C65_constructor lower hl _ _ _ _ _ _ _ _ _ _ hS
  rw [hk] at c6
  cases c6
  have e5 : S.numSnapshots = n := (Except.ok.inj c5).symm
  choose Λ σ h1 h2 using fun i => H { env with junk := mem i } ⟨he.abs, he.f2, he.f3⟩ true fn hfn
    (startBatch S i).times n h (by simp [startBatch, e5]) hn hh0 hhη hnT
  have hb : ∀ i, startBatch S i = ⟨P, h, (startBatch S i).times⟩ := fun i => by
    rw [startBatch, c2, c3]
  obtain ⟨r1, r2⟩ := array_of_tasks he.perMatrix c7 (c8 rfl) (.inr rfl) hseed (by rw [c2]; exact hp)
    hM c4 (mem := mem) (row := fun i => (List.range N).map fun q => .fin (Λ i q)) (fun i => by
      unfold aloneRun
      rw [hb i, c1]
      exact h1 i) h₀ hex
  exact ⟨r1, fun rs hr => ⟨Λ, fun i q hq => ⟨σ i q, h2 i q hq⟩, r2 rs hr⟩⟩

/-- **C111 (files, 3-D).**  The same with output: the files of the call are in its folder, under the
names of the start times, and each holds accurate values of `Z` beside the centroids of the groups. -/
theorem C111_files_3d (k : Kind) (hw : SmoothEnough k fun _ => w) (hK : LipschitzWith K w)
    (hL : ∀ x, ‖w x‖ ≤ L) {T : ℝ} (hT : 0 ≤ T) {N : ℕ} {seed : NDArray ℝ}
    (hseed : seed.shape = [6 * N, 3]) {P : Particles ℝ} (hp : mkParticles seed = .ok P)
    (hg : ∀ i < N, groupOf seed 6 N 3 i 1 0 ≠ groupOf seed 6 N 3 i 0 0 ∧
      groupOf seed 6 N 3 i 2 1 ≠ groupOf seed 6 N 3 i 3 1 ∧
      groupOf seed 6 N 3 i 4 2 ≠ groupOf seed 6 N 3 i 5 2) :
    ∃ Z : (Fin 3 → ℝ) → ℝ → Fin 3 → ℝ,
      (∀ c, IsTrajectory (fun _ => w) (Icc (-T) T) (Z c) ∧ Z c 0 = c) ∧
      ∃ C η, 0 < η ∧ ∀ (env : Env ℝ FVal), RealEnv env → ∀ fn : VelocityFn ℝ,
        Pointwise (6 * N) 3 (fn 0) w → ∀ (α : Type) (lower : String → String) (iname format : String)
        (procs : ℤ) (h : ℝ) (n M : ℕ) (name : Option PathStr) (now : WallClock) (d : Disk α)
        (S : ApiSolver ℝ FVal) (wr : Writer) (folder : PathStr), lower "analytical" = "analytical" →
        createIntegrator lower iname = .ok k →
        (startApi lower fn P h (.ok n) M iname procs true format name now d).2.2 =
          .ok (S, some (wr, folder)) →
        apiFolder name now ≠ [] → (∀ i < M, '/' ∉ (env.timeName (startTime h i)).toList) →
        ((List.range M).map fun i => env.timeName (startTime h i)).Nodup →
        d.Takes (apiFolder name now) ((List.range M).map (apiFileName env.timeName h format)) →
        2 ≤ n → h ≠ 0 → |h| ≤ η → n * |h| ≤ T → ∀ (mem : ℕ → List ℕ → ℝ)
        (s₀ st : HostState (Shared ℝ) (Option (List FVal) × List (Event ℝ FVal)))
        (as : List (Action (Option (List FVal) × List (Event ℝ FVal)))),
        (S.host env).init mem = .ok s₀ → HostState.Exec (S.host env) mem s₀ as st →
        (.crash ∉ as → ∃ bs st' rs, HostState.Exec (S.host env) mem s₀ (as ++ bs) st' ∧
          st'.pool.phase = .returned rs) ∧
        ∀ rs, st.pool.phase = .returned rs → ∀ (order : List ℕ), order.Perm (List.range M) →
          ∀ file : Saved ℝ FVal → α,
          S.outcome st = some (.ok .none) ∧
          ∀ i < M, ∃ saved Λ, Accurate3 Z seed N k C n h Λ ∧
            saved.Says (apiRecords format seed N 3 ((List.range N).map fun q => .fin (Λ q))) ∧
            ((startApi (F := FVal) lower fn P h (.ok n) M iname procs true format name now
                d).1.writeFiles folder (apiFiles wr file rs order)).1.node
              (d.target (apiFolder name now) ++ [apiFileName env.timeName h format i]) =
              some (.file (file saved)) := by
  choose Z hZ using fun c => exists_trajectory hK hL hT c
  refine ⟨Z, hZ, ?_⟩
  obtain ⟨C, η, hη, H⟩ := steady_values_3d k hw hK hT Z hZ hseed hp hg
  refine ⟨C, η, hη, ?_⟩
  intro env he fn hfn α lower iname format procs h n M name now d S wr folder hl hk hstart hfol hslash
    hnames htakes hn hh0 hhη hnT mem s₀ st as h₀ hex
  obtain ⟨-, hcreate, -⟩ := startApi_ok lower hl hstart
  obtain ⟨c1, c2, c3, c4, c5, -⟩ := C65_constructor lower hl _ _ _ _ _ _ _ _ _ _ hcreate
  have e5 : S.numSnapshots = n := (Except.ok.inj c5).symm
  choose Λ σ h1 h2 using fun i => H { env with junk := mem i } ⟨he.abs, he.f2, he.f3⟩ true fn hfn
    (startBatch S i).times n h (by simp [startBatch, e5]) hn hh0 hhη hnT
  have hb : ∀ i, startBatch S i = ⟨P, h, (startBatch S i).times⟩ := fun i => by
    rw [startBatch, c2, c3]
  have hrun : ∀ i, (aloneRun { env with junk := mem i } none (.analytical (startBatch S i))
      (.analytical (.fresh (some fn))) k).result =
        .ok (some ((List.range N).map fun q => .fin (Λ i q))) := fun i => by
    unfold aloneRun
    rw [hb i]
    exact h1 i
  refine ⟨fun hc => ?_, fun rs hr order ho file => ?_⟩
  · refine C107_completes lower hl hstart env he.perMatrix (.inr rfl) hseed hp mem
      (fun kind hkind i _ => ?_) h₀ hex hc
    obtain rfl := Except.ok.inj (hk.symm.trans hkind)
    exact ⟨_, hrun i⟩
  · obtain ⟨q1, -, -, ⟨kind, hkind, q2⟩, -⟩ := C107_saved lower hl hstart env he.perMatrix (.inr rfl) hseed
      hp hfol hslash hnames htakes mem h₀ hex hr order ho file
    obtain rfl := Except.ok.inj (hk.symm.trans hkind)
    refine ⟨q1, fun i hi => ?_⟩
    obtain ⟨field, saved, f1, f2, f3⟩ := q2 i hi
    rw [hrun i] at f1
    cases f1
    exact ⟨saved, Λ i, fun q hq => ⟨σ i q, h2 i q hq⟩, f2, f3⟩

end

/-! ## The hypotheses can be met -/

/-- A flow in space. -/
noncomputable def swirl (x : Fin 3 → ℝ) : Fin 3 → ℝ := ![Real.sin (x 2), Real.sin (x 0), Real.cos (x 1)]

theorem swirl_smooth (n : ℕ∞) : ContDiff ℝ n swirl := by
  rw [contDiff_pi]
  intro c
  fin_cases c
  · show ContDiff ℝ n fun x : Fin 3 → ℝ => Real.sin (x 2)
    fun_prop
  · show ContDiff ℝ n fun x : Fin 3 → ℝ => Real.sin (x 0)
    fun_prop
  · show ContDiff ℝ n fun x : Fin 3 → ℝ => Real.cos (x 1)
    fun_prop

theorem swirl_lipschitz : LipschitzWith 1 swirl := by
  refine LipschitzWith.of_dist_le_mul fun x y => ?_
  rw [NNReal.coe_one, one_mul, dist_eq_norm, dist_eq_norm]
  refine (pi_norm_le_iff_of_nonneg (norm_nonneg _)).2 fun c => ?_
  fin_cases c
  · exact (Real.abs_sin_sub_sin_le _ _).trans (norm_le_pi_norm (x - y) 2)
  · exact (Real.abs_sin_sub_sin_le _ _).trans (norm_le_pi_norm (x - y) 0)
  · exact (Real.abs_cos_sub_cos_le _ _).trans (norm_le_pi_norm (x - y) 1)

theorem swirl_bounded (x : Fin 3 → ℝ) : ‖swirl x‖ ≤ (1 : ℝ≥0) := by
  refine (pi_norm_le_iff_of_nonneg (by simp)).2 fun c => ?_
  fin_cases c
  · exact Real.abs_sin_le_one _
  · exact Real.abs_sin_le_one _
  · exact Real.abs_cos_le_one _

/-- Six seeds around the origin. -/
noncomputable def swirlSeed : NDArray ℝ := ⟨[6, 3], fun i =>
  if i = [0, 0] ∨ i = [3, 1] ∨ i = [5, 2] then -1
  else if i = [1, 0] ∨ i = [2, 1] ∨ i = [4, 2] then 1 else 0⟩

/-- An empty folder. -/
def swirlDisk : Disk (Saved ℝ FVal) := diskOf [tmpName] [([], .dir), ([tmpName], .dir)] []

theorem swirlName (h : ℝ) (i : ℕ) :
    apiFileName realEnv.timeName h "mat" i = "ftle_.mat".toList := by
  unfold apiFileName
  rw [if_pos rfl]
  show ("ftle_" ++ "" ++ ".mat").toList = "ftle_.mat".toList
  decide +kernel

theorem swirlTakes (h : ℝ) : swirlDisk.Takes (apiFolder (some "out".toList) demoNow)
    ((List.range 1).map (apiFileName realEnv.timeName h "mat")) := by
  have hway : swirlDisk.way (apiFolder (some "out".toList) demoNow) =
      [[tmpName], [tmpName, "out".toList]] := by decide +kernel
  have htarget : swirlDisk.target (apiFolder (some "out".toList) demoNow) =
      [tmpName, "out".toList] := by decide +kernel
  have hnames : (List.range 1).map (apiFileName realEnv.timeName h "mat") = ["ftle_.mat".toList] := by
    simp only [List.range_one, List.map_cons, List.map_nil, swirlName]
  refine ⟨diskOf_tree rfl rfl ?_, .inl (by decide +kernel), ?_, ?_, ?_⟩
  · intro e he
    simp only [List.mem_cons, List.not_mem_nil, or_false] at he
    rcases he with rfl | rfl
    · exact .inl rfl
    · exact .inr rfl
  · rw [hway]
    intro x hx
    simp only [List.mem_cons, List.not_mem_nil, or_false] at hx
    rcases hx with rfl | rfl
    · exact .inl rfl
    · exact .inr ⟨rfl, rfl⟩
  · rw [htarget]
    rfl
  · rw [hway, htarget, hnames]
    intro n hn
    simp only [List.mem_cons, List.not_mem_nil, or_false] at hn
    subst hn
    refine ⟨?_, rfl, by decide⟩
    rw [show swirlDisk.node _ = none from rfl]
    simp

/-- A call for one field of this flow, with RK4 and MATLAB output in the folder `out`: for small steps it
runs to its end, and its file holds an accurate value. -/
example : ∃ (h : ℝ) (S : ApiSolver ℝ FVal) (P : Particles ℝ) (C : ℝ) (Z : (Fin 3 → ℝ) → ℝ → Fin 3 → ℝ),
    0 < h ∧ mkParticles swirlSeed = .ok P ∧ (∀ c, IsTrajectory (fun _ => swirl) (Icc (-3) 3) (Z c)) ∧
    (startApi id (fun _ => sourceOf 3 swirl) P h (.ok (2 : ℕ)) (1 : ℕ) "rk4" 1 true "mat"
      (some "out".toList) demoNow swirlDisk).2.2 =
        .ok (S, some (Writer.fresh .mat none, "out".toList)) ∧
    ∃ s₀ as st rs, (S.host realEnv).init (fun _ _ => 5) = .ok s₀ ∧
      HostState.Exec (S.host realEnv) (fun _ _ => 5) s₀ as st ∧ st.pool.phase = .returned rs ∧
      ∃ saved Λ, Accurate3 Z swirlSeed 1 .rk4 C 2 h Λ ∧
        saved.Says (apiRecords "mat" swirlSeed 1 3 [.fin (Λ 0)]) ∧
        ((startApi (F := FVal) id (fun _ => sourceOf 3 swirl) P h (.ok (2 : ℕ)) (1 : ℕ) "rk4" 1 true
            "mat" (some "out".toList) demoNow swirlDisk).1.writeFiles "out".toList
            (apiFiles (Writer.fresh .mat none) id rs [0])).1.node
          [tmpName, "out".toList, "ftle_.mat".toList] = some (.file saved) := by
  have hs : swirlSeed.shape = [6 * 1, 3] := rfl
  obtain ⟨P, hP, -⟩ := mkParticles_3d hs
  obtain ⟨Z, hZ, C, η, hη, H⟩ := C111_files_3d .rk4 ⟨swirl, swirl_smooth 4, rfl⟩ swirl_lipschitz
    swirl_bounded (T := 3) (by norm_num) hs hP (by
      intro i hi
      obtain rfl : i = 0 := by omega
      simp [groupOf, rowOf, swirlSeed]
      norm_num)
  have hm : 0 < min η 1 := lt_min hη one_pos
  obtain ⟨S, hS⟩ : ∃ S : ApiSolver ℝ FVal, (startApi id (fun _ => sourceOf 3 swirl) P (min η 1)
      (.ok (2 : ℕ)) (1 : ℕ) "rk4" 1 true "mat" (some "out".toList) demoNow swirlDisk).2.2 =
        .ok (S, some (Writer.fresh .mat none, "out".toList)) := by
    refine ⟨⟨P, min η 1, 1, 2, .analytical (.fresh (some fun _ => sourceOf 3 swirl)), Integ.fresh .rk4,
      some (Writer.fresh .mat none).asWriteFn, 1⟩, ?_⟩
    simp [startApi, ApiSolver.create, createInterpolator, createIntegrator, createWriter, apiFolder]
  obtain ⟨-, hcreate, -⟩ := startApi_ok id rfl hS
  obtain ⟨-, -, -, c4, -, c6, -⟩ := C65_constructor id rfl _ _ _ _ _ _ _ _ _ _ hcreate
  obtain ⟨s₀, h₀⟩ := (C65_start realEnv S (fun _ _ => 5)).1 (by rw [c4]; simp) (by rw [c6])
  have key := fun st as hx => H realEnv realEnv_ok _ (sourceOf_pointwise _ _ _) (Saved ℝ FVal) id "rk4"
    "mat" 1 (min η 1) 2 1 (some "out".toList) demoNow swirlDisk S _ _ rfl rfl hS
    (by simp [apiFolder]) (by intro i _; simp [realEnv]) (by simp) (swirlTakes _) le_rfl hm.ne'
    (by rw [abs_of_pos hm]; exact min_le_left _ _)
    (by rw [abs_of_pos hm]; have := min_le_right η 1; push_cast; linarith) (fun _ _ => 5) s₀ st as h₀ hx
  obtain ⟨bs, st, rs, h1, h2⟩ := (key _ [] .nil).1 (by simp)
  obtain ⟨-, h3⟩ := (key st _ h1).2 rs h2 [0] (List.Perm.refl _) id
  obtain ⟨saved, Λ, h4, h5, h6⟩ := h3 0 (by omega)
  have ht : swirlDisk.target (apiFolder (some "out".toList) demoNow) ++
      [apiFileName realEnv.timeName (min η 1) "mat" 0] =
      [tmpName, "out".toList, "ftle_.mat".toList] := by
    have htarget : swirlDisk.target (apiFolder (some "out".toList) demoNow) =
      [tmpName, "out".toList] := by decide +kernel
    rw [htarget, swirlName]
    rfl
  rw [ht] at h6
  exact ⟨min η 1, S, P, C, Z, hm, hP, fun c => (hZ c).1, hS, s₀, _, st, rs, h₀, h1, h2, saved, Λ, h4, h5,
    h6⟩

end Verif
