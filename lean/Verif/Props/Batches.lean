import Verif.Lemmas.Batches
import Mathlib.Data.Nat.Factorization.Basic
import Mathlib.RingTheory.Coprime.Lemmas
import Mathlib.RingTheory.Int.Basic
import Mathlib.Tactic.LinearCombination
import Mathlib.Algebra.Order.Ring.Rat

/-!
# Construction of tasks: C43, C44 (task list), C45, C46, C47
-/

set_option linter.unusedSectionVars false

namespace Verif

variable {K : Type}

/-! ## C43: sliding windows -/

/-- Task `t` is the `i`-th window of `p` snapshots. -/
structure IsWindow (stem : String → String) (snap coord part : List String) (dt : K) (p i : ℕ)
    (t : FileSource K) : Prop where
  snapshots_length : t.snapshotFiles.length = p
  snapshots : ∀ k < p, t.snapshotFiles[k]? = snap[i + k]?
  coordinates_length : t.coordinateFiles.length = p
  coordinates : ∀ k < p, t.coordinateFiles[k]? = coord[(i + k) % coord.length]?
  particle : some t.particleFile = part[i % part.length]?
  timestep : t.timestep = dt
  id : some t.id = snap[i]?.map stem
  /-- coordinates are read once exactly when all the files are the same -/
  reuse : t.reuseCoordinates = true ↔ ∀ f ∈ t.coordinateFiles, ∀ g ∈ t.coordinateFiles, f = g

/-- A window is determined by the lists. -/
theorem IsWindow.unique {stem : String → String} {snap coord part : List String} {dt : K}
    {p i : ℕ} {t t' : FileSource K} (h : IsWindow stem snap coord part dt p i t)
    (h' : IsWindow stem snap coord part dt p i t') : t = t' := by
  have h1 : t.snapshotFiles = t'.snapshotFiles := by
    apply List.ext_getElem?
    intro k
    rcases Nat.lt_or_ge k p with hk | hk
    · rw [h.snapshots k hk, h'.snapshots k hk]
    · rw [List.getElem?_eq_none (by rw [h.snapshots_length]; exact hk),
        List.getElem?_eq_none (by rw [h'.snapshots_length]; exact hk)]
  have h2 : t.coordinateFiles = t'.coordinateFiles := by
    apply List.ext_getElem?
    intro k
    rcases Nat.lt_or_ge k p with hk | hk
    · rw [h.coordinates k hk, h'.coordinates k hk]
    · rw [List.getElem?_eq_none (by rw [h.coordinates_length]; exact hk),
        List.getElem?_eq_none (by rw [h'.coordinates_length]; exact hk)]
  have h3 := Option.some.inj (h.particle.trans h'.particle.symm)
  have h4 := h.timestep.trans h'.timestep.symm
  have h5 := Option.some.inj (h.id.trans h'.id.symm)
  have h6 : t.reuseCoordinates = t'.reuseCoordinates := by
    rw [Bool.eq_iff_iff, h.reuse, h'.reuse, h2]
  cases t
  cases t'
  simp_all

theorem dedup_length_one {l : List String} (hl : l ≠ []) :
    l.dedup.length = 1 ↔ ∀ f ∈ l, ∀ g ∈ l, f = g := by
  constructor
  · intro h f hf g hg
    obtain ⟨x, hx⟩ := List.length_eq_one_iff.1 h
    have e : ∀ y ∈ l, y = x := fun y hy => by
      have := List.mem_dedup.2 hy
      rw [hx] at this
      simpa using this
    rw [e f hf, e g hg]
  · intro h
    obtain ⟨x, l, rfl⟩ := List.exists_cons_of_ne_nil hl
    have : (x :: l).dedup.Perm [x] := by
      rw [List.perm_ext_iff_of_nodup (List.nodup_dedup _) (by simp)]
      intro a
      rw [List.mem_dedup, List.mem_singleton]
      exact ⟨fun ha => h a ha x (by simp), fun ha => by simp [ha]⟩
    simpa using this.length_eq

/-- **C43.**  For `1 ≤ p ≤ n` the tasks are exactly the `n - p + 1` sliding windows. -/
theorem C43_windows (stem : String → String) (M : Manager K) (p : ℕ) (hp : 1 ≤ p)
    (hn : p ≤ M.snapshotFiles.length) (hc : M.coordinateFiles ≠ []) (hq : M.particleFiles ≠ []) :
    ∃ tasks, M.createBatches stem p = .ok tasks ∧
      tasks.length = M.snapshotFiles.length - p + 1 ∧
      ∀ i < M.snapshotFiles.length - p + 1, ∃ t, tasks[i]? = some t ∧
        IsWindow stem M.snapshotFiles M.coordinateFiles M.particleFiles M.timestep p i t := by
  set n := M.snapshotFiles.length with hnd
  have hr : pyRange ((n : ℤ) - p + 1) = List.range (n - p + 1) := by
    unfold pyRange; congr 1; omega
  obtain ⟨cc, hcc, hcl, hcg⟩ := isliceCycle_ok hc (k := (n : ℤ) + p - 1) (by omega)
  obtain ⟨pc, hpc, hpl, hpg⟩ := isliceCycle_ok hq (k := (n : ℤ)) (by omega)
  have hqpos : 0 < M.particleFiles.length := List.length_pos_of_ne_nil hq
  -- the particle file of window `i`
  let pf : ℕ → String := fun i => (M.particleFiles[i % M.particleFiles.length]?).getD ""
  have hpf : ∀ i, M.particleFiles[i % M.particleFiles.length]? = some (pf i) := by
    intro i
    have : i % M.particleFiles.length < M.particleFiles.length := Nat.mod_lt _ hqpos
    simp only [pf, List.getElem?_eq_getElem this, Option.getD_some]
  have hparts : pyMap (fun i : ℕ => pyIndex pc i) (List.range (n - p + 1)) =
      .ok ((List.range (n - p + 1)).map pf) := by
    apply pyMap_ok
    intro i hi
    rw [List.mem_range] at hi
    rw [pyIndex_nat, hpg i (by omega), hpf i]
  -- the task of window `i`
  let tk : ℕ → FileSource K := fun i =>
    { snapshotFiles := (M.snapshotFiles.drop i).take p
      coordinateFiles := (cc.drop i).take p
      particleFile := pf i
      timestep := M.timestep
      id := stem ((M.snapshotFiles[i]?).getD "")
      reuseCoordinates := decide (((cc.drop i).take p).dedup.length = 1) }
  have hfin : M.createBatches stem p = .ok ((List.range (n - p + 1)).map tk) := by
    unfold Manager.createBatches
    dsimp only
    rw [← hnd, hcc]
    dsimp only
    rw [hpc]
    dsimp only
    rw [hr, hparts]
    dsimp only
    apply pyMap_ok
    intro i hi
    rw [List.mem_range] at hi
    simp only [List.getElem?_map, List.getElem?_range hi, Option.map_some]
    rw [pySlice_nat M.snapshotFiles (by omega), pySlice_nat cc (by omega)]
    have hlt : i < M.snapshotFiles.length := by omega
    have hcons : (M.snapshotFiles.drop i).take p =
        M.snapshotFiles[i] :: (M.snapshotFiles.drop (i + 1)).take (p - 1) := by
      rw [List.drop_eq_getElem_cons hlt]
      obtain ⟨q, rfl⟩ : ∃ q, p = q + 1 := ⟨p - 1, by omega⟩
      rfl
    simp only [tk, List.getElem?_eq_getElem hlt, Option.getD_some]
    rw [hcons]
    rfl
  refine ⟨_, hfin, by simp, fun i hi => ⟨tk i, by simp [List.getElem?_range hi], ?_⟩⟩
  have hlt : i < M.snapshotFiles.length := by omega
  exact
    { snapshots_length := by simp only [tk, List.length_take, List.length_drop]; omega
      snapshots := fun k hk => take_drop_getElem _ hk
      coordinates_length := by simp only [tk, List.length_take, List.length_drop]; omega
      coordinates := fun k hk => by
        rw [← hcg (i + k) (by omega)]
        exact take_drop_getElem _ hk
      particle := (hpf i).symm
      timestep := rfl
      id := by simp only [tk, List.getElem?_eq_getElem hlt, Option.getD_some, Option.map_some]
      reuse := by
        have hlen : ((cc.drop i).take p).length = p := by
          simp only [List.length_take, List.length_drop]; omega
        simp only [tk, decide_eq_true_iff]
        exact dedup_length_one (by rintro h; rw [h] at hlen; simp at hlen; omega) }

/-- A concrete case: 4 snapshots, 2 coordinate files, 2 snapshots per window. -/
example : ∃ tasks : List (FileSource ℚ),
    (⟨["s0", "s1", "s2", "s3"], ["c0", "c1"], ["p0"], 1⟩ : Manager ℚ).createBatches id 2 = .ok tasks ∧
      tasks.map (·.snapshotFiles) = [["s0", "s1"], ["s1", "s2"], ["s2", "s3"]] ∧
      tasks.map (·.coordinateFiles) = [["c0", "c1"], ["c1", "c0"], ["c0", "c1"]] ∧
      tasks.map (·.particleFile) = ["p0", "p0", "p0"] := ⟨_, rfl, rfl, rfl, rfl⟩

/-! ## C44: infeasible periods -/

/-- **C44 (too long a period).**  The task list is empty. -/
theorem C44_too_long (stem : String → String) (M : Manager K) (p : ℤ)
    (hn : (M.snapshotFiles.length : ℤ) < p) : M.createBatches stem p = .ok [] := by
  have hr : pyRange ((M.snapshotFiles.length : ℤ) - p + 1) = [] := by
    unfold pyRange
    rw [show ((M.snapshotFiles.length : ℤ) - p + 1).toNat = 0 by omega]
    rfl
  unfold Manager.createBatches isliceCycle
  dsimp only
  rw [if_neg (by omega)]
  dsimp only
  rw [if_neg (by omega)]
  dsimp only
  rw [hr]
  rfl

/-- **C44 (non-positive number of snapshots).**  Building the task list raises. -/
theorem C44_not_positive (stem : String → String) (M : Manager K) (p : ℤ) (hp : p < 1) :
    M.createBatches stem p = .error .valueError ∨ M.createBatches stem p = .error .indexError := by
  have hr : M.snapshotFiles.length ∈ pyRange ((M.snapshotFiles.length : ℤ) - p + 1) := by
    unfold pyRange; rw [List.mem_range]; omega
  unfold Manager.createBatches
  dsimp only
  cases hc : isliceCycle M.coordinateFiles ((M.snapshotFiles.length : ℤ) + p - 1) with
  | error e =>
    left
    unfold isliceCycle at hc
    split at hc
    · cases hc; rfl
    · cases hc
  | ok cc =>
    right
    have hi : isliceCycle M.particleFiles (M.snapshotFiles.length : ℤ) =
        .ok (cycleFrom M.particleFiles M.particleFiles M.snapshotFiles.length) := by
      unfold isliceCycle
      rw [if_neg (by omega)]
      simp
    rw [hi]
    dsimp only
    have hlen : (cycleFrom M.particleFiles M.particleFiles M.snapshotFiles.length).length ≤
        M.snapshotFiles.length := by
      by_cases h : M.particleFiles = []
      · rw [h]
        cases M.snapshotFiles.length <;> simp [cycleFrom]
      · rw [cycleFrom_length h]
    have := pyMap_error (e := .indexError)
      (f := fun i : ℕ => pyIndex (cycleFrom M.particleFiles M.particleFiles
        M.snapshotFiles.length) i)
      (l := pyRange ((M.snapshotFiles.length : ℤ) - p + 1)) (fun i _ => by
        rw [pyIndex_nat]
        split
        · exact Or.inr ⟨_, rfl⟩
        · exact Or.inl rfl) ⟨_, hr, by
        rw [pyIndex_nat, List.getElem?_eq_none hlen]⟩
    rw [this]

example : (⟨["a", "b"], ["c"], ["p"], 1⟩ : Manager ℚ).createBatches id 3 = .ok [] := rfl
example : (⟨["a", "b"], ["c"], ["p"], 1⟩ : Manager ℚ).createBatches id 0 = .error .indexError :=
  rfl
example : (⟨["a", "b"], ["c"], ["p"], 1⟩ : Manager ℚ).createBatches id (-3) =
    .error .valueError := rfl

/-! ## C45: backward runs -/

section
variable [Zero K] [LT K] [DecidableLT K]

/-- **C45 (windows).**  With a negative time step, task `i` contains, in reversed order, the
snapshots of the forward window `n - p - i`. -/
theorem C45_mirrored_windows (stem : String → String) (M : Manager K) (hneg : M.timestep < 0)
    (p : ℕ) (hp : 1 ≤ p) (hn : p ≤ M.snapshotFiles.length) (hc : M.coordinateFiles ≠ [])
    (hq : M.particleFiles ≠ []) :
    ∃ bwd fwd, M.handleTimeDirection.createBatches stem p = .ok bwd ∧
      M.createBatches stem p = .ok fwd ∧ bwd.length = fwd.length ∧
      fwd.length = M.snapshotFiles.length - p + 1 ∧
      ∀ i ≤ M.snapshotFiles.length - p, ∃ b f, bwd[i]? = some b ∧
        fwd[M.snapshotFiles.length - p - i]? = some f ∧
        b.snapshotFiles = f.snapshotFiles.reverse := by
  have hM : M.handleTimeDirection = ⟨M.snapshotFiles.reverse, M.coordinateFiles.reverse,
      M.particleFiles.reverse, M.timestep⟩ := by
    unfold Manager.handleTimeDirection; rw [if_pos hneg]
  obtain ⟨bwd, b1, b2, b3⟩ := C43_windows stem M.handleTimeDirection p hp
    (by rw [hM]; simpa using hn) (by rw [hM]; simpa using hc) (by rw [hM]; simpa using hq)
  obtain ⟨fwd, f1, f2, f3⟩ := C43_windows stem M p hp hn hc hq
  have hlen : M.handleTimeDirection.snapshotFiles.length = M.snapshotFiles.length := by
    rw [hM]; simp
  rw [hlen] at b2 b3
  refine ⟨bwd, fwd, b1, f1, by omega, f2, fun i hi => ?_⟩
  obtain ⟨b, hb, wb⟩ := b3 i (by omega)
  obtain ⟨f, hf, wf⟩ := f3 (M.snapshotFiles.length - p - i) (by omega)
  refine ⟨b, f, hb, hf, List.ext_getElem? fun k => ?_⟩
  rcases Nat.lt_or_ge k p with hk | hk
  · rw [wb.snapshots k hk, List.getElem?_reverse (by rw [wf.snapshots_length]; exact hk),
      wf.snapshots_length, wf.snapshots _ (by omega), hM]
    rw [List.getElem?_reverse (by omega)]
    congr 1
    omega
  · rw [List.getElem?_eq_none (by rw [wb.snapshots_length]; exact hk),
      List.getElem?_eq_none (by rw [List.length_reverse, wf.snapshots_length]; exact hk)]

/-- The coordinate file paired with the `k`-th snapshot of task `i`. -/
def pairedWith (tasks : List (FileSource K)) (i k : ℕ) : Option String :=
  (tasks[i]?).bind fun t => t.coordinateFiles[k]?

theorem pairing {stem : String → String} {M : Manager K} (hneg : M.timestep < 0)
    {p : ℕ} (hp : 1 ≤ p) (hn : p ≤ M.snapshotFiles.length) (hc : M.coordinateFiles ≠ [])
    (hq : M.particleFiles ≠ []) :
    ∃ bwd fwd, M.handleTimeDirection.createBatches stem p = .ok bwd ∧
      M.createBatches stem p = .ok fwd ∧
      ∀ i ≤ M.snapshotFiles.length - p, ∀ k < p,
        pairedWith bwd i k =
          M.coordinateFiles[M.coordinateFiles.length - 1 - (i + k) % M.coordinateFiles.length]? ∧
        pairedWith fwd (M.snapshotFiles.length - p - i) (p - 1 - k) =
          M.coordinateFiles[(M.snapshotFiles.length - 1 - (i + k)) % M.coordinateFiles.length]? := by
  have hM : M.handleTimeDirection = ⟨M.snapshotFiles.reverse, M.coordinateFiles.reverse,
      M.particleFiles.reverse, M.timestep⟩ := by
    unfold Manager.handleTimeDirection; rw [if_pos hneg]
  obtain ⟨bwd, b1, b2, b3⟩ := C43_windows stem M.handleTimeDirection p hp
    (by rw [hM]; simpa using hn) (by rw [hM]; simpa using hc) (by rw [hM]; simpa using hq)
  obtain ⟨fwd, f1, f2, f3⟩ := C43_windows stem M p hp hn hc hq
  have hlen : M.handleTimeDirection.snapshotFiles.length = M.snapshotFiles.length := by
    rw [hM]; simp
  have hpos : 0 < M.coordinateFiles.length := List.length_pos_of_ne_nil hc
  rw [hlen] at b2 b3
  refine ⟨bwd, fwd, b1, f1, fun i hi k hk => ?_⟩
  obtain ⟨b, hb, wb⟩ := b3 i (by omega)
  obtain ⟨f, hf, wf⟩ := f3 (M.snapshotFiles.length - p - i) (by omega)
  constructor
  · rw [pairedWith, hb, Option.bind_some, wb.coordinates k hk, hM]
    simp only [List.length_reverse]
    rw [List.getElem?_reverse (Nat.mod_lt _ hpos)]
  · rw [pairedWith, hf, Option.bind_some, wf.coordinates _ (by omega)]
    congr 2
    omega

/-- **C45 (pairing, what holds).**  If the number of coordinate files divides the number of
snapshots (in particular for a single coordinate file, and for one file per snapshot), every
snapshot keeps its coordinate file: the `k`-th snapshot of backward task `i` is snapshot
`p - 1 - k` of forward task `n - p - i`, and both carry the same coordinate file. -/
theorem C45_pairing_partial (stem : String → String) (M : Manager K) (hneg : M.timestep < 0)
    (p : ℕ) (hp : 1 ≤ p) (hn : p ≤ M.snapshotFiles.length) (hc : M.coordinateFiles ≠ [])
    (hq : M.particleFiles ≠ []) (hdvd : M.coordinateFiles.length ∣ M.snapshotFiles.length) :
    ∃ bwd fwd, M.handleTimeDirection.createBatches stem p = .ok bwd ∧
      M.createBatches stem p = .ok fwd ∧
      ∀ i ≤ M.snapshotFiles.length - p, ∀ k < p,
        pairedWith bwd i k = pairedWith fwd (M.snapshotFiles.length - p - i) (p - 1 - k) := by
  obtain ⟨bwd, fwd, h1, h2, h3⟩ := pairing (stem := stem) hneg hp hn hc hq
  refine ⟨bwd, fwd, h1, h2, fun i hi k hk => ?_⟩
  obtain ⟨e1, e2⟩ := h3 i hi k hk
  rw [e1, e2]
  congr 1
  obtain ⟨c, hc'⟩ := hdvd
  have hpos : 0 < M.coordinateFiles.length := List.length_pos_of_ne_nil hc
  set m := M.coordinateFiles.length
  set j := i + k
  have hj : j < m * c := by omega
  have hjm := Nat.mod_add_div j m
  have hlt := Nat.mod_lt j hpos
  have hdc : j / m < c := by
    by_contra hcon
    have : m * c ≤ m * (j / m) := Nat.mul_le_mul_left _ (not_lt.1 hcon)
    omega
  obtain ⟨q, hq'⟩ : ∃ q, c = j / m + 1 + q := ⟨c - (j / m + 1), by omega⟩
  have hmc : m * c = m * (j / m) + m + m * q := by rw [hq']; ring
  have : M.snapshotFiles.length - 1 - j = (m - 1 - j % m) + m * q := by omega
  rw [this, Nat.add_mul_mod_self_left,
    Nat.mod_eq_of_lt (show m - 1 - j % m < m by omega)]

/-- **C45 (pairing) is false of the code** whenever the number of (distinct) coordinate files
does not divide the number of snapshots: the first snapshot of the first backward task is
paired with another coordinate file than in the forward run. -/
theorem C45_pairing_fails (stem : String → String) (M : Manager K) (hneg : M.timestep < 0)
    (p : ℕ) (hp : 1 ≤ p) (hn : p ≤ M.snapshotFiles.length) (hc : M.coordinateFiles ≠ [])
    (hq : M.particleFiles ≠ []) (hnd : M.coordinateFiles.Nodup)
    (hdvd : ¬ M.coordinateFiles.length ∣ M.snapshotFiles.length) :
    ∃ bwd fwd, M.handleTimeDirection.createBatches stem p = .ok bwd ∧
      M.createBatches stem p = .ok fwd ∧
      pairedWith bwd 0 0 ≠ pairedWith fwd (M.snapshotFiles.length - p) (p - 1) := by
  obtain ⟨bwd, fwd, h1, h2, h3⟩ := pairing (stem := stem) hneg hp hn hc hq
  refine ⟨bwd, fwd, h1, h2, fun heq => hdvd ?_⟩
  obtain ⟨e1, e2⟩ := h3 0 (by omega) 0 (by omega)
  simp only [Nat.sub_zero, Nat.add_zero, Nat.zero_mod] at e1 e2
  rw [e1, e2] at heq
  have hpos : 0 < M.coordinateFiles.length := List.length_pos_of_ne_nil hc
  have hlt := Nat.mod_lt (M.snapshotFiles.length - 1) hpos
  have hidx := (List.getElem?_inj (by omega) hnd).1 heq
  have := Nat.mod_add_div (M.snapshotFiles.length - 1) M.coordinateFiles.length
  refine ⟨(M.snapshotFiles.length - 1) / M.coordinateFiles.length + 1, ?_⟩
  rw [Nat.mul_add]
  omega

end

example : ∃ bwd fwd : List (FileSource ℚ),
    (⟨["s0", "s1", "s2"], ["c0", "c1"], ["p"], -1⟩ : Manager ℚ).handleTimeDirection.createBatches
      id 2 = .ok bwd ∧
    (⟨["s0", "s1", "s2"], ["c0", "c1"], ["p"], -1⟩ : Manager ℚ).createBatches id 2 = .ok fwd ∧
    -- `s2` is paired with `c1` in the backward run and with `c0` in the forward run
    bwd.map (·.coordinateFiles) = [["c1", "c0"], ["c0", "c1"]] ∧
    bwd.map (·.snapshotFiles) = [["s2", "s1"], ["s1", "s0"]] ∧
    fwd.map (·.coordinateFiles) = [["c0", "c1"], ["c1", "c0"]] := by
  have : (⟨["s0", "s1", "s2"], ["c0", "c1"], ["p"], -1⟩ : Manager ℚ).handleTimeDirection =
      ⟨["s2", "s1", "s0"], ["c1", "c0"], ["p"], -1⟩ := by
    simp [Manager.handleTimeDirection]
  rw [this]
  exact ⟨_, _, rfl, rfl, rfl, rfl, rfl⟩

/-! ## C47: number of snapshots per period -/

theorem truncInt_int (k : ℤ) : truncInt k = k := by simp [truncInt]

set_option exponentiation.threshold 3000 in
/-- A quotient of two binary64 numbers that is a positive integer below `2^1024` is itself a
binary64 number. -/
theorem integer_quotient {T d : ℚ} (hT : IsB64 T) (hd : IsB64 d) (k : ℕ) (hk : 0 < k)
    (h : T = k * d) (hd0 : d ≠ 0) (hmax : k < 2 ^ 1024) : IsB64 k := by
  obtain ⟨a, e, ha, -, -, rfl⟩ := hT
  obtain ⟨b, f, -, -, -, rfl⟩ := hd
  have hb0 : b ≠ 0 := by rintro rfl; simp at hd0
  obtain ⟨j, o, ho, hko⟩ : ∃ j o, Odd o ∧ k = 2 ^ j * o := by
    obtain ⟨j, o, h1, h2⟩ := Nat.exists_eq_two_pow_mul_odd hk.ne'
    exact ⟨j, o, h1, h2⟩
  -- clear denominators: an integer equation
  obtain ⟨x, y, hxy⟩ : ∃ x y : ℕ, (a : ℤ) * 2 ^ x = k * b * 2 ^ y := by
    obtain ⟨u, x, y, rfl, rfl⟩ : ∃ (u : ℤ) (x y : ℕ), e = u + x ∧ f = u + y :=
      ⟨min e f, (e - min e f).toNat, (f - min e f).toNat, by omega, by omega⟩
    refine ⟨x, y, ?_⟩
    rw [zpow_add₀ (by norm_num), zpow_add₀ (by norm_num), zpow_natCast, zpow_natCast] at h
    have hm : (2 : ℚ) ^ u ≠ 0 := by positivity
    have h2 : (a : ℚ) * 2 ^ x = k * b * 2 ^ y := by
      apply mul_right_cancel₀ hm
      linear_combination h
    exact_mod_cast h2
  have hoa : (o : ℤ) ∣ a := by
    have h1 : (o : ℤ) ∣ a * 2 ^ x := by
      rw [hxy, hko]
      push_cast
      exact ⟨2 ^ j * b * 2 ^ y, by ring⟩
    have hcop : IsCoprime (o : ℤ) (2 ^ x) := by
      apply IsCoprime.pow_right
      have : Nat.Coprime o 2 := Nat.coprime_two_right.2 ho
      exact_mod_cast Nat.isCoprime_iff_coprime.2 this
    exact hcop.dvd_of_dvd_mul_right h1
  have ha0 : a ≠ 0 := by
    rintro rfl
    have : (k : ℤ) * b * 2 ^ y = 0 := by rw [← hxy]; simp
    have h2 : (2 : ℤ) ^ y ≠ 0 := by positivity
    have h3 : (k : ℤ) ≠ 0 := by exact_mod_cast hk.ne'
    exact mul_ne_zero (mul_ne_zero h3 hb0) h2 this
  have hole : (o : ℤ) ≤ |a| := Int.le_of_dvd (abs_pos.2 ha0) ((dvd_abs _ _).2 hoa)
  have ho53 : o < 2 ^ 53 := by
    have : (o : ℤ) < 2 ^ 53 := lt_of_le_of_lt hole ha
    exact_mod_cast this
  rcases Nat.lt_or_ge 971 j with hj | hj
  · refine ⟨(2 ^ (j - 971) * o : ℕ), 971, ?_, by norm_num, by norm_num, ?_⟩
    · have h1 : 2 ^ (j - 971) * o * 2 ^ 971 < 2 ^ 53 * 2 ^ 971 := by
        have : 2 ^ (j - 971) * o * 2 ^ 971 = k := by
          rw [hko]
          conv_rhs => rw [show j = (j - 971) + 971 by omega, pow_add]
          exact Nat.mul_right_comm _ _ _
        rw [this]
        exact lt_of_lt_of_eq hmax (pow_add 2 53 971)
      have h2 := lt_of_mul_lt_mul_right h1 (Nat.zero_le _)
      rw [Nat.abs_cast]
      exact_mod_cast h2
    · rw [hko]
      conv_lhs => rw [show j = (j - 971) + 971 by omega, pow_add]
      rw [show (971 : ℤ) = ((971 : ℕ) : ℤ) from rfl, zpow_natCast, Int.cast_natCast,
        Nat.cast_mul, Nat.cast_mul, Nat.cast_mul, Nat.cast_pow, Nat.cast_pow, Nat.cast_ofNat]
      ring
  · refine ⟨(o : ℤ), j, ?_, by omega, by exact_mod_cast hj, ?_⟩
    · rw [Nat.abs_cast]; exact_mod_cast ho53
    · rw [hko, zpow_natCast]; push_cast; ring

/-- **C47.**  If the period is exactly `k` time steps (both binary64 numbers) and `k` does not
exceed the binary64 range, the number of snapshots per window is `k + 1`.  The restriction on
`k` is necessary, see `C47_overflow_fails`. -/
theorem C47_exact_partial {T dt : ℚ} (hT : IsB64 T) (hdt : IsB64 dt) (k : ℕ) (hk : 0 < k)
    (hdt0 : dt ≠ 0) (h : T = k * |dt|) (hmax : k < 2 ^ 1024) :
    snapshotsPerPeriod T dt = .ok (k + 1) := by
  have habs : IsB64 |dt| := by
    obtain ⟨m, e, h1, h2, h3, rfl⟩ := hdt
    refine ⟨|m|, e, by rw [abs_abs]; exact h1, h2, h3, ?_⟩
    rw [abs_mul, abs_of_pos (show (0 : ℚ) < 2 ^ e by positivity)]
    push_cast
    rfl
  have hk64 := integer_quotient hT habs k hk h (abs_ne_zero.2 hdt0) hmax
  have hq : T / |dt| = k := by rw [h]; exact mul_div_cancel_right₀ _ (abs_ne_zero.2 hdt0)
  unfold snapshotsPerPeriod
  rw [if_neg hdt0, hq, b64, rne_self hk64, if_pos (by
    rw [Nat.abs_cast]; exact_mod_cast hmax)]
  have := truncInt_int k
  simp only [Int.cast_natCast] at this
  simp only [this]

/-- **C47 (rounded inputs, what holds).**  If the quotient of the inputs is within `1/4` of an
integer `k` with `1 ≤ k ≤ 2^50` (inputs rounded from decimal fractions, say), the number of
snapshots is `k + 1` or `k`: at most one is lost. -/
theorem C47_rounded_partial {T dt : ℚ} (k : ℕ) (hk : 0 < k) (hk50 : k ≤ 2 ^ 50) (hdt0 : dt ≠ 0)
    (h : |T / |dt| - k| ≤ 1 / 4) :
    snapshotsPerPeriod T dt = .ok (k + 1) ∨ snapshotsPerPeriod T dt = .ok k := by
  set q := T / |dt| with hqd
  have hk1 : (1 : ℚ) ≤ k := by exact_mod_cast hk
  have hk2 : (k : ℚ) ≤ 2 ^ 50 := by exact_mod_cast hk50
  obtain ⟨l1, l2⟩ := abs_le.1 h
  have hq0 : 0 < q := by linarith
  have hqabs : |q| = q := abs_of_pos hq0
  have hrel := rne_rel (x := q) (by
    rw [hqabs]
    have : (2 : ℚ) ^ (-1022 : ℤ) ≤ 2 ^ (-1 : ℤ) := zpow_le_zpow_right₀ (by norm_num) (by norm_num)
    have h2 : (2 : ℚ) ^ (-1 : ℤ) = 1 / 2 := by norm_num
    exact this.trans (by rw [h2]; linarith))
  have herr : |rne q - q| ≤ 1 / 4 := by
    refine hrel.trans ?_
    rw [hqabs]
    have h2 : (2 : ℚ) ^ (-53 : ℤ) = 1 / 2 ^ 53 := by norm_num
    rw [h2]
    have : q ≤ 2 ^ 51 := by
      have : (1 : ℚ) / 4 ≤ 2 ^ 50 := by norm_num
      linarith [show (2 : ℚ) ^ 51 = 2 ^ 50 + 2 ^ 50 by norm_num]
    rw [mul_one_div, div_le_iff₀ (by norm_num)]
    linarith [show (1 : ℚ) / 4 * 2 ^ 53 = 2 ^ 51 by norm_num]
  obtain ⟨m1, m2⟩ := abs_le.1 herr
  have hlo : (k : ℚ) - 1 / 2 ≤ rne q := by linarith
  have hhi : rne q ≤ k + 1 / 2 := by linarith
  have hpos : 0 ≤ rne q := by linarith
  have htr : truncInt (rne q) = ⌊rne q⌋ := by
    unfold truncInt
    rw [Int.tdiv_eq_ediv_of_nonneg (Rat.num_nonneg.2 hpos), Rat.floor_def']
  have hfin : |rne q| < (2 : ℚ) ^ 1024 := by
    rw [abs_of_nonneg hpos]
    have h1 : (2 : ℚ) ^ 51 ≤ 2 ^ 1024 := pow_le_pow_right₀ (by norm_num) (by norm_num)
    have h2 : (2 : ℚ) ^ 51 = 2 ^ 50 + 2 ^ 50 := by norm_num
    have h3 : (1 : ℚ) / 2 < 2 ^ 50 := by norm_num
    exact lt_of_lt_of_le (by rw [h2]; linarith) h1
  unfold snapshotsPerPeriod
  rw [if_neg hdt0, ← hqd, b64, if_pos hfin]
  simp only [htr]
  have f1 : ⌊rne q⌋ < (k : ℤ) + 1 := by
    rw [Int.floor_lt]; push_cast; linarith
  have f2 : (k : ℤ) - 1 ≤ ⌊rne q⌋ := by
    rw [Int.le_floor]; push_cast; linarith
  rcases (by omega : ⌊rne q⌋ = (k : ℤ) ∨ ⌊rne q⌋ = (k : ℤ) - 1) with h' | h'
  · left; rw [h']
  · right; rw [h']; congr 1; omega

/-- **C47 (decimal inputs).**  The documented use `T = 0.3`, `dt = 0.1` (three steps) gives 3
snapshots instead of 4: both numbers are rounded to binary64 first. -/
theorem C47_decimal_fails : snapshotsPerPeriod (rne (3 / 10)) (rne (1 / 10)) = .ok 3 := by
  decide +kernel

/-- **C47 (computed period).**  Even a period computed as `3 * dt` in binary64 may lose a
snapshot: `dt = ((2^54 + 2)/3) · 2^-54`. -/
theorem C47_product_fails : ∃ dt : ℚ, rne dt = dt ∧ 0 < dt ∧
    snapshotsPerPeriod (rne (3 * dt)) dt = .ok 3 :=
  ⟨6004799503160662 / 18014398509481984, by decide +kernel, by norm_num, by decide +kernel⟩

/-- **C47 (overflow).**  Both numbers are binary64 and the period is an exact multiple of the
time step, but the quotient is infinite. -/
theorem C47_overflow_fails : IsB64 (2 ^ 1000) ∧ IsB64 (1 / 2 ^ 1074) ∧
    ((2 : ℚ) ^ 1000 = (2 ^ 2074 : ℕ) * |1 / 2 ^ 1074|) ∧
    snapshotsPerPeriod (2 ^ 1000) (1 / 2 ^ 1074) = .error .overflowError := by
  refine ⟨⟨2 ^ 52, 948, by norm_num, by norm_num, by norm_num, ?_⟩,
    ⟨1, -1074, by norm_num, by norm_num, by norm_num, by norm_num⟩, ?_, by decide +kernel⟩
  · rw [show (948 : ℤ) = ((948 : ℕ) : ℤ) from rfl, zpow_natCast]
    rw [show ((2 ^ 52 : ℤ) : ℚ) = 2 ^ 52 by norm_num, ← pow_add]
  · rw [abs_of_pos (by positivity), Nat.cast_pow, Nat.cast_ofNat]
    rw [show 2074 = 1000 + 1074 from rfl, pow_add]
    field_simp

/-- The hypotheses of `C47_exact_partial` are satisfiable. -/
example : IsB64 (3 / 4) ∧ IsB64 (-1 / 4) ∧ (3 / 4 : ℚ) = (3 : ℕ) * |(-1 / 4 : ℚ)| ∧
    snapshotsPerPeriod (3 / 4) (-1 / 4) = .ok 4 :=
  ⟨⟨3, -2, by norm_num, by norm_num, by norm_num, by norm_num⟩,
    ⟨-1, -2, by norm_num, by norm_num, by norm_num, by norm_num⟩, by norm_num [abs_of_neg],
    by decide +kernel⟩

end Verif
