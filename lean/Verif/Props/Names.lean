import Verif.Props.Batches
import Verif.Lemmas.Solver

/-!
# Output names: C46
-/

set_option linter.unusedSectionVars false

namespace Verif

/-! ## What a run writes -/

section
variable {K F : Type} [Zero K] [One K] [Add K] [Sub K] [Mul K] [Div K] [NatCast K] [IntCast K]
  [Min K] [Max K] [NumLits K] [DecidableEq K]

/-- Names of the files written, in order. -/
def writtenNames : List (Event K F) → List String
  | [] => []
  | .written name _ _ :: t => name :: writtenNames t
  | _ :: t => writtenNames t

theorem writtenNames_append (a b : List (Event K F)) :
    writtenNames (a ++ b) = writtenNames a ++ writtenNames b := by
  induction a with
  | nil => rfl
  | cons e t ih => cases e <;> simp [writtenNames, ih]

theorem steps_writes (env : Env K F) (src : Source K) (id : String) (queue : Bool) :
    ∀ (is : List ℕ) (st : Loop K F),
      writtenNames (Loop.steps env src id queue is st).1.trace = writtenNames st.trace := by
  intro is
  induction is with
  | nil => intro st; rfl
  | cons i is ih =>
    intro st
    have hstep : writtenNames (st.step env src id queue i).1.trace = writtenNames st.trace := by
      unfold Loop.step
      repeat' split
      all_goals first
        | rfl
        | (simp only [writtenNames_append]; cases queue <;> simp [writtenNames])
    unfold Loop.steps
    split
    · rename_i h; rw [h] at hstep; exact hstep
    · rename_i h; rw [h] at hstep; rw [ih]; exact hstep

/-- **C46 (which name).**  A successful run with a writer writes exactly one file, named
`ftle_` followed by the identifier of its source. -/
theorem C46_written_name (env : Env K F) (queue : Bool) (w : WriteFn K F) (S : Solver K)
    (r : Option (List F)) (h : (S.run env queue (some w)).result = .ok r) :
    ∃ id, S.source.id env = .ok id ∧
      writtenNames (S.run env queue (some w)).trace = ["ftle_" ++ id] := by
  unfold Solver.run at h ⊢
  cases hp : S.source.getParticles env.fs with
  | error e => rw [hp] at h; cases h
  | ok p =>
    simp only [hp] at h ⊢
    cases hid : S.source.id env with
    | error e => rw [hid] at h; cases h
    | ok id =>
      refine ⟨id, rfl, ?_⟩
      simp only [hid] at h ⊢
      have hw := steps_writes env S.source id queue (List.range S.source.numSteps)
        ⟨S.interp, S.integ, p, []⟩
      rcases hst : Loop.steps env S.source id queue (List.range S.source.numSteps)
        ⟨S.interp, S.integ, p, []⟩ with ⟨st, _ | e⟩
      · simp only [hst] at h hw ⊢
        cases hf : computeFtle env st.particles S.source.numSteps S.source.timestep with
        | error e => rw [hf] at h; cases h
        | ok field =>
          simp only [hf] at h ⊢
          cases hwr : w ("ftle_" ++ id) field st.particles.initialCentroid with
          | some e => rw [hwr] at h; cases h
          | none =>
            simp only [writtenNames_append, hw]
            cases queue <;> simp [writtenNames]
      · rw [hst] at h; cases h

end

variable {K : Type}

/-! ## File sources -/

theorem ids_eq (stem : String → String) (M : Manager K) (p : ℕ) (hp : 1 ≤ p)
    (hn : p ≤ M.snapshotFiles.length) (hc : M.coordinateFiles ≠ []) (hq : M.particleFiles ≠ []) :
    ∃ tasks, M.createBatches stem p = .ok tasks ∧
      tasks.map (·.id) = (M.snapshotFiles.take (M.snapshotFiles.length - p + 1)).map stem := by
  obtain ⟨tasks, h1, h2, h3⟩ := C43_windows stem M p hp hn hc hq
  refine ⟨tasks, h1, List.ext_getElem? fun i => ?_⟩
  rcases Nat.lt_or_ge i (M.snapshotFiles.length - p + 1) with hi | hi
  · obtain ⟨t, ht, w⟩ := h3 i hi
    rw [List.getElem?_map, ht, List.getElem?_map, List.getElem?_take_of_lt hi, ← w.id]
    rfl
  · rw [List.getElem?_eq_none (by simp only [List.length_map]; omega),
      List.getElem?_eq_none (by simp only [List.length_map, List.length_take]; omega)]

/-- The names of the output files of a run. -/
def outputNames (tasks : List (FileSource K)) : List String := tasks.map fun t => "ftle_" ++ t.id

theorem outputNames_nodup (tasks : List (FileSource K)) :
    (outputNames tasks).Nodup ↔ (tasks.map (·.id)).Nodup := by
  have : outputNames tasks = (tasks.map (·.id)).map ("ftle_" ++ ·) := by
    simp [outputNames]
  rw [this, List.nodup_map_iff]
  intro a b h
  have := congrArg String.toList h
  simp only [String.toList_append, List.append_cancel_left_eq] at this
  exact String.toList_injective this

/-- **C46 (what holds, in general).**  The output names are distinct exactly if the first
snapshots of the windows have distinct stems. -/
theorem C46_distinct_stems_partial (M : Manager K) (p : ℕ) (hp : 1 ≤ p)
    (hn : p ≤ M.snapshotFiles.length) (hc : M.coordinateFiles ≠ []) (hq : M.particleFiles ≠ []) :
    ∃ tasks, M.createBatches pathStem p = .ok tasks ∧
      ((outputNames tasks).Nodup ↔
        ((M.snapshotFiles.take (M.snapshotFiles.length - p + 1)).map pathStem).Nodup) := by
  obtain ⟨tasks, h1, h2⟩ := ids_eq pathStem M p hp hn hc hq
  exact ⟨tasks, h1, by rw [outputNames_nodup, h2]⟩

/-! ### Stems -/

theorem splitSlash_ne_nil (l : List Char) : splitSlash l ≠ [] := by
  cases l with
  | nil => simp [splitSlash]
  | cons c cs =>
    unfold splitSlash
    split
    · simp
    · split <;> simp

theorem splitSlash_append (a b : List Char) :
    splitSlash (a ++ '/' :: b) = splitSlash a ++ splitSlash b := by
  induction a with
  | nil => simp [splitSlash]
  | cons c cs ih =>
    by_cases hc : c = '/'
    · simp [splitSlash, hc, ih]
    · obtain ⟨p, ps, hps⟩ := List.exists_cons_of_ne_nil (splitSlash_ne_nil cs)
      simp only [List.cons_append, splitSlash, if_neg hc, ih, hps]

theorem splitSlash_noSlash {l : List Char} (h : '/' ∉ l) : splitSlash l = [l] := by
  induction l with
  | nil => rfl
  | cons c cs ih =>
    rw [List.mem_cons, not_or] at h
    rw [splitSlash, if_neg (Ne.symm h.1), ih h.2]

theorem pathName_file (dir : List Char) {name : List Char} (h : '/' ∉ name) (h0 : name ≠ [])
    (h1 : name ≠ ['.']) : pathName (dir ++ '/' :: name) = name := by
  rw [pathName, splitSlash_append, splitSlash_noSlash h, List.filter_append]
  simp [h0, h1]

theorem stemOfName_ext {base ext : List Char} (hb : base ≠ []) (he : ext ≠ []) (hd : '.' ∉ ext) :
    stemOfName (base ++ '.' :: ext) = base := by
  have hr : (base ++ '.' :: ext).reverse = ext.reverse ++ '.' :: base.reverse := by simp
  have hd' : ∀ c ∈ ext.reverse, (decide (c ≠ '.')) = true := by
    intro c hc
    rw [List.mem_reverse] at hc
    simp only [decide_eq_true_eq]
    rintro rfl
    exact hd hc
  unfold stemOfName
  rw [hr, List.dropWhile_append_of_pos hd', List.takeWhile_append_of_pos hd']
  simp [hb, he]

/-- The stem of `dir/base.ext`. -/
theorem pathStem_file (dir base ext : List Char) (hb : base ≠ []) (hs : '/' ∉ base)
    (he : ext ≠ []) (hes : '/' ∉ ext) (hed : '.' ∉ ext) :
    pathStem (String.ofList (dir ++ '/' :: (base ++ '.' :: ext))) = String.ofList base := by
  unfold pathStem
  rw [String.toList_ofList, pathName_file, stemOfName_ext hb he hed]
  · simp only [List.mem_append, List.mem_cons, not_or]
    exact ⟨hs, by decide, hes⟩
  · simp
  · obtain ⟨c, cs, rfl⟩ := List.exists_cons_of_ne_nil hb
    simp

/-- **C46 (what holds).**  Snapshots `dir/b.ext` in one directory, with one extension and
distinct base names `b` — the usual file naming — give distinct output names. -/
theorem C46_one_directory_partial (M : Manager K) (p : ℕ) (hp : 1 ≤ p)
    (hn : p ≤ M.snapshotFiles.length) (hc : M.coordinateFiles ≠ []) (hq : M.particleFiles ≠ [])
    (dir ext : List Char) (bases : List (List Char)) (hbases : bases.Nodup)
    (hb : ∀ b ∈ bases, b ≠ [] ∧ '/' ∉ b) (he : ext ≠ []) (hes : '/' ∉ ext) (hed : '.' ∉ ext)
    (hsnap : M.snapshotFiles =
      bases.map fun b => String.ofList (dir ++ '/' :: (b ++ '.' :: ext))) :
    ∃ tasks, M.createBatches pathStem p = .ok tasks ∧ (outputNames tasks).Nodup := by
  obtain ⟨tasks, h1, h2⟩ := C46_distinct_stems_partial M p hp hn hc hq
  refine ⟨tasks, h1, h2.2 ?_⟩
  have : (M.snapshotFiles.map pathStem).Nodup := by
    rw [hsnap, List.map_map]
    have e : bases.map (pathStem ∘ fun b => String.ofList (dir ++ '/' :: (b ++ '.' :: ext))) =
        bases.map String.ofList := by
      apply List.map_congr_left
      intro b hbm
      exact pathStem_file dir b ext (hb b hbm).1 (hb b hbm).2 he hes hed
    rw [e]
    exact hbases.map fun _ _ h => String.ofList_injective h
  rw [List.map_take]
  exact this.sublist (List.take_sublist _ _)

example : ∃ tasks : List (FileSource ℚ),
    (⟨["d/a.mat", "d/b.mat"], ["c"], ["p"], 1⟩ : Manager ℚ).createBatches pathStem 1 = .ok tasks ∧
      outputNames tasks = ["ftle_a", "ftle_b"] := ⟨_, rfl, by decide +kernel⟩

/-- **C46 is false of the code.**  Distinct snapshot paths whose file names differ only in the
directory, or only in the extension, give tasks with the same output name. -/
theorem C46_files_fails :
    (∃ tasks : List (FileSource ℚ),
      (⟨["run1/v.mat", "run2/v.mat"], ["c"], ["p"], 1⟩ : Manager ℚ).createBatches pathStem 1 =
        .ok tasks ∧ outputNames tasks = ["ftle_v", "ftle_v"]) ∧
    (∃ tasks : List (FileSource ℚ),
      (⟨["d/v.mat", "d/v.v73"], ["c"], ["p"], 1⟩ : Manager ℚ).createBatches pathStem 1 =
        .ok tasks ∧ outputNames tasks = ["ftle_v", "ftle_v"]) :=
  ⟨⟨_, rfl, by decide +kernel⟩, ⟨_, rfl, by decide +kernel⟩⟩

/-! ## Analytical sources -/

/-- Identifiers of analytical tasks. -/
def startNames {K : Type} (name : K → String) (tasks : List (AnalyticalSource K)) :
    List (Option String) := tasks.map fun s => s.times.head?.map name

theorem timeName_close {s t : ℚ} (h : timeName s = timeName t) : |s - t| ≤ 1 / 1000000 := by
  obtain ⟨h1, h2⟩ := formatTime_close (abs_nonneg s) (abs_nonneg t) h
  have h3 := decide_eq_decide.1 h1
  rcases lt_or_ge s 0 with hs | hs
  · have ht := h3.1 hs
    rw [abs_of_neg hs, abs_of_neg ht] at h2
    rw [abs_sub_comm]
    convert h2 using 2
    ring
  · have ht : 0 ≤ t := not_lt.1 fun ht => absurd (h3.2 ht) (not_lt.2 hs)
    rwa [abs_of_nonneg hs, abs_of_nonneg ht] at h2

theorem startNames_eq {K : Type} [Add K] [Mul K] [NatCast K] (name : K → String)
    (P : Particles K) (dt : K) (nf ns : ℤ) (hns : 0 < ns) :
    startNames name (analyticalBatches P dt nf ns) =
      (List.range nf.toNat).map fun i : ℕ => some (name ((i : K) * dt + ((0 : ℕ) : K) * dt)) := by
  unfold startNames analyticalBatches pyRange
  rw [List.map_map]
  apply List.map_congr_left
  intro i _
  obtain ⟨k, hk⟩ : ∃ k, ns.toNat = k + 1 := ⟨ns.toNat - 1, by omega⟩
  simp [hk, List.range_succ_eq_map]

theorem startNames_nodup {K : Type} [Add K] [Mul K] [NatCast K] (name : K → String)
    (P : Particles K) (dt : K) (nf ns : ℤ) (hns : 0 < ns)
    (hinj : ∀ i j : ℕ, i < j → j < nf.toNat →
      name ((i : K) * dt + ((0 : ℕ) : K) * dt) ≠ name ((j : K) * dt + ((0 : ℕ) : K) * dt)) :
    (startNames name (analyticalBatches P dt nf ns)).Nodup := by
  rw [startNames_eq name P dt nf ns hns, List.nodup_map_iff_inj_on List.nodup_range]
  intro i hi j hj h
  rw [List.mem_range] at hi hj
  simp only [Option.some.injEq] at h
  rcases lt_trichotomy i j with hij | hij | hij
  · exact absurd h (hinj i j hij hj)
  · exact hij
  · exact absurd h.symm (hinj j i hij hi)

/-- **C46 (analytical tasks, what holds; exact arithmetic).**  With a time step larger than one
millionth in magnitude, all tasks have distinct names. -/
theorem C46_analytical_partial (P : Particles ℚ) (dt : ℚ) (hdt : 1 / 1000000 < |dt|) (nf ns : ℤ)
    (hns : 0 < ns) : (startNames timeName (analyticalBatches P dt nf ns)).Nodup := by
  apply startNames_nodup _ _ _ _ _ hns
  intro i j hij _ h
  have := timeName_close h
  have e : (i : ℚ) * dt + ((0 : ℕ) : ℚ) * dt - ((j : ℚ) * dt + ((0 : ℕ) : ℚ) * dt) =
      -((j - i : ℚ) * dt) := by push_cast; ring
  rw [e, abs_neg, abs_mul] at this
  have h1 : (1 : ℚ) ≤ |(j : ℚ) - i| := by
    rw [abs_of_pos] <;>
    · have : (i : ℚ) + 1 ≤ j := by exact_mod_cast hij
      linarith
  nlinarith [abs_nonneg dt]

/-- **C46 (analytical tasks, what holds; binary64 arithmetic).**  With a time step of at least
two millionths and fewer than `2^50` fields, all tasks have distinct names.  (For a negative
time step the code also computes `-0.0` as first time; its name `-0.000000` differs from all
others as well, since names determine the sign bit, `formatTime_close`.) -/
theorem C46_analytical_binary64_partial (P : Particles Fl) (dt : Fl)
    (hdt : 2 / 1000000 ≤ |dt.val|) (nf ns : ℤ) (hns : 0 < ns) (hnf : nf < 2 ^ 50) :
    (startNames (fun t : Fl => timeName t.val) (analyticalBatches P dt nf ns)).Nodup := by
  have hd0 : 0 < |dt.val| := by linarith
  have val : ∀ i : ℕ, i < 2 ^ 50 →
      ((i : Fl) * dt + ((0 : ℕ) : Fl) * dt).val = rne (i * dt.val) := by
    intro i hi
    change rne (rne (rne i * dt.val) + rne (rne (0 : ℕ) * dt.val)) = _
    rw [rne_nat (by omega), rne_nat (by norm_num)]
    simp [rne_zero, rne_rne]
  have err : ∀ i : ℕ, i < 2 ^ 50 → |rne (i * dt.val) - i * dt.val| ≤ |dt.val| / 8 := by
    intro i hi
    rcases Nat.eq_zero_or_pos i with rfl | hi0
    · simp [rne_zero]; positivity
    · have hi1 : (1 : ℚ) ≤ i := by exact_mod_cast hi0
      have hi2 : (i : ℚ) ≤ 2 ^ 50 := by exact_mod_cast hi.le
      have habs : |(i : ℚ) * dt.val| = i * |dt.val| := by rw [abs_mul, Nat.abs_cast]
      have h1 : (2 : ℚ) ^ (-1022 : ℤ) ≤ |(i : ℚ) * dt.val| := by
        rw [habs]
        have h2 : (2 : ℚ) ^ (-1022 : ℤ) ≤ 2 ^ (-20 : ℤ) :=
          zpow_le_zpow_right₀ (by norm_num) (by norm_num)
        have h3 : (2 : ℚ) ^ (-20 : ℤ) = 1 / 1048576 := by norm_num
        refine h2.trans ?_
        rw [h3]
        nlinarith
      refine (rne_rel h1).trans ?_
      rw [habs]
      have h3 : (2 : ℚ) ^ (-53 : ℤ) = 1 / 2 ^ 53 := by norm_num
      rw [h3, mul_one_div, div_le_iff₀ (by norm_num)]
      calc (i : ℚ) * |dt.val| ≤ 2 ^ 50 * |dt.val| := mul_le_mul_of_nonneg_right hi2 hd0.le
        _ = |dt.val| / 8 * 2 ^ 53 := by ring
  apply startNames_nodup _ _ _ _ _ hns
  intro i j hij hj h
  have hj' : j < 2 ^ 50 := by omega
  rw [val i (by omega), val j hj'] at h
  have hc := timeName_close h
  obtain ⟨a1, a2⟩ := abs_le.1 (err i (by omega))
  obtain ⟨b1, b2⟩ := abs_le.1 (err j hj')
  obtain ⟨c1, c2⟩ := abs_le.1 hc
  have hij' : (i : ℚ) + 1 ≤ j := by exact_mod_cast hij
  rcases le_total 0 dt.val with hp | hp
  · rw [abs_of_nonneg hp] at *
    nlinarith
  · rw [abs_of_nonpos hp] at *
    nlinarith

/-- **C46 is false of the code for small time steps.**  With `dt = 10^-7` the first five tasks
all write to `ftle_0.000000`. -/
theorem C46_analytical_fails (P : Particles Fl) :
    startNames (fun t : Fl => timeName t.val) (analyticalBatches P ⟨rne (1 / 10000000)⟩ 5 2) =
      List.replicate 5 (some "0.000000") := by
  rw [startNames_eq _ _ _ _ _ (by norm_num)]
  have : ∀ i < 5, timeName ((((i : ℕ) : Fl) * ⟨rne (1 / 10000000)⟩ +
      ((0 : ℕ) : Fl) * ⟨rne (1 / 10000000)⟩ : Fl)).val = "0.000000" := by decide +kernel
  rw [List.eq_replicate_iff]
  refine ⟨rfl, fun x hx => ?_⟩
  obtain ⟨i, hi, rfl⟩ := List.mem_map.1 hx
  rw [this i (List.mem_range.1 hi)]

end Verif
