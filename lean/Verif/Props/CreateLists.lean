import Verif.Model.CreateLists
import Verif.Props.Program

/-!
# C78: the script that builds the list files
-/

namespace Verif

/-! ## Specification -/

/-- The entries that belong in the list of a keyword: `.mat` files with the keyword in their
name. -/
def ofKind (keyword : List Char) (entries : Listing) : List (List Char) :=
  (entries.filter fun e => decide (".mat".toList <:+: e.2 ∧ keyword <:+: e.2)).map (·.1)

/-- The entries selected by the script: the keyword may be anywhere in the path. -/
def ofKindPath (keyword : List Char) (entries : Listing) : List (List Char) :=
  (entries.filter fun e => decide (".mat".toList <:+: e.2 ∧ keyword <:+: e.1)).map (·.1)

/-! ## Lemmas -/

theorem strIn_iff (needle s : List Char) : strIn needle s = true ↔ needle <:+: s := by
  unfold strIn
  rw [List.any_eq_true]
  constructor
  · rintro ⟨t, ht, hp⟩
    exact (List.isPrefixOf_iff_prefix.1 hp).isInfix.trans ((List.mem_tails _ _).1 ht).isInfix
  · rintro ⟨a, b, rfl⟩
    exact ⟨needle ++ b, (List.mem_tails _ _).2 ⟨a, by simp⟩,
      List.isPrefixOf_iff_prefix.2 ⟨b, rfl⟩⟩

theorem mat_plain : PlainPattern ".mat".toList where
  nonempty := by decide
  chars := by decide

theorem sortedLe_eq {a b : List (List Char)} (ha : a.Pairwise fun x y => strLe x y = true)
    (hb : b.Pairwise fun x y => strLe x y = true) (h : a.Perm b) : a = b :=
  h.eq_of_pairwise (fun x y _ _ h1 h2 => strLe_antisymm x y h1 h2) ha hb

/-- The list of a keyword, with multiplicity. -/
theorem selectFiles_perm (keyword : List Char) (entries : Listing) :
    (selectFiles keyword (findFiles entries ".mat".toList)).Perm (ofKindPath keyword entries) := by
  unfold selectFiles
  refine (List.mergeSort_perm _ _).trans ?_
  refine ((C62_sorted_exact entries _ mat_plain).2.filter _).trans ?_
  rw [List.filter_map, List.filter_filter]
  unfold ofKindPath
  refine List.Perm.of_eq ?_
  congr 1
  apply List.filter_congr
  intro e _
  rw [Bool.eq_iff_iff, decide_eq_true_iff, Bool.and_eq_true, decide_eq_true_iff]
  simp only [Function.comp, strIn_iff]
  exact and_comm

theorem selectFiles_sorted (keyword : List Char) (files : List (List Char)) :
    (selectFiles keyword files).Pairwise fun x y => strLe x y = true :=
  List.pairwise_mergeSort (fun a b c => strLe_trans a b c) strLe_total _

theorem selectFiles_isEmpty (keyword : List Char) (entries : Listing) :
    (selectFiles keyword (findFiles entries ".mat".toList)).isEmpty = true ↔
      ofKindPath keyword entries = [] := by
  have hp := selectFiles_perm keyword entries
  rw [List.isEmpty_iff]
  constructor
  · intro h
    rw [h] at hp
    exact hp.symm.eq_nil
  · intro h
    rw [h] at hp
    exact hp.eq_nil

/-- The warnings by emptiness of the velocity and of the coordinate list. -/
theorem warnings_cases (entries : Listing) :
    ∃ v c : Bool, (v = true ↔ ofKindPath "velocities".toList entries = []) ∧
      (c = true ↔ ofKindPath "coordinate".toList entries = []) ∧
      (createLists entries).warnings =
        (if v then ["Warning: No velocity files found."] else []) ++
        (if c then ["Warning: No coordinate file found."] else []) ++
        (if c then ["Warning: No particle file found."] else []) :=
  ⟨_, _, selectFiles_isEmpty _ _, selectFiles_isEmpty _ _, rfl⟩

/-! ## C78 -/

/-- **C78** (what the lists contain).  Each of the three list files is the sorted list of the
entries with `.mat` in their name and the keyword somewhere in their path.

Partial: the keyword should be in the name, and the name should end in `.mat`; see the theorems
below. -/
theorem C78_lists_partial (entries : Listing) :
    ∃ V C P : List (List Char),
      (createLists entries).velocity = writeList V ∧
      (createLists entries).coordinate = writeList C ∧
      (createLists entries).particle = writeList P ∧
      V.Perm (ofKindPath "velocities".toList entries) ∧
      C.Perm (ofKindPath "coordinate".toList entries) ∧
      P.Perm (ofKindPath "particles".toList entries) ∧
      ∀ l ∈ [V, C, P], l.Pairwise fun x y => strLe x y = true := by
  refine ⟨_, _, _, rfl, rfl, rfl, selectFiles_perm _ _, selectFiles_perm _ _,
    selectFiles_perm _ _, ?_⟩
  intro l hl
  simp only [List.mem_cons, List.not_mem_nil, or_false] at hl
  rcases hl with rfl | rfl | rfl <;> exact selectFiles_sorted _ _

/-- **C78** (by name).  If a keyword occurs in the path of an entry only by occurring in its name,
its list holds exactly the entries of that kind. -/
theorem C78_by_name_partial (entries : Listing) (keyword : List Char)
    (h : ∀ e ∈ entries, keyword <:+: e.1 → keyword <:+: e.2)
    (hpath : ∀ e ∈ entries, e.2 <:+: e.1) :
    (selectFiles keyword (findFiles entries ".mat".toList)).Perm (ofKind keyword entries) := by
  refine (selectFiles_perm keyword entries).trans (List.Perm.of_eq ?_)
  unfold ofKindPath ofKind
  congr 1
  apply List.filter_congr
  intro e he
  have : keyword <:+: e.1 ↔ keyword <:+: e.2 := ⟨h e he, fun hk => hk.trans (hpath e he)⟩
  simp only [this]

/-- **C78 is false of the code** (one list per file): a file below a directory named after another
kind is put into both lists. -/
theorem C78_partition_fails :
    let entries : Listing := [("in/particles_run/velocities_1.mat".toList,
      "velocities_1.mat".toList)]
    (createLists entries).velocity = "in/particles_run/velocities_1.mat\n".toList ∧
    (createLists entries).particle = "in/particles_run/velocities_1.mat\n".toList ∧
    ofKind "particles".toList entries = [] := by
  decide +kernel

/-- **C78 is false of the code** (only `.mat` files): a backup copy is listed. -/
theorem C78_suffix_fails :
    (createLists [("in/velocities_1.mat.bak".toList, "velocities_1.mat.bak".toList)]).velocity =
      "in/velocities_1.mat.bak\n".toList := by
  decide +kernel

/-- **C78** (warnings that are right).  The first two warnings are printed exactly when the
corresponding list is empty.

Partial: the third one is not, see `C78_particle_warning_fails`. -/
theorem C78_warnings_partial (entries : Listing) :
    ("Warning: No velocity files found." ∈ (createLists entries).warnings ↔
      ofKindPath "velocities".toList entries = []) ∧
    ("Warning: No coordinate file found." ∈ (createLists entries).warnings ↔
      ofKindPath "coordinate".toList entries = []) := by
  obtain ⟨v, c, hv, hc, hw⟩ := warnings_cases entries
  rw [hw, ← hv, ← hc]
  cases v <;> cases c <;> simp

/-- **C78 is false of the code** (third warning): whatever the entries, the particle warning is
printed exactly when there is no coordinate file.  So it is missing when only the particle file is
missing, and wrong when only the coordinate file is. -/
theorem C78_particle_warning_fails :
    (∀ entries : Listing, "Warning: No particle file found." ∈ (createLists entries).warnings ↔
      ofKindPath "coordinate".toList entries = []) ∧
    (∃ entries : Listing, ofKindPath "particles".toList entries = [] ∧
      "Warning: No particle file found." ∉ (createLists entries).warnings) ∧
    (∃ entries : Listing, ofKindPath "particles".toList entries ≠ [] ∧
      "Warning: No particle file found." ∈ (createLists entries).warnings) := by
  refine ⟨fun entries => ?_, ⟨[("in/coordinate.mat".toList, "coordinate.mat".toList)], ?_⟩,
    ⟨[("in/particles.mat".toList, "particles.mat".toList)], ?_⟩⟩
  · obtain ⟨v, c, hv, hc, hw⟩ := warnings_cases entries
    rw [hw, ← hc]
    cases v <;> cases c <;> simp
  · decide +kernel
  · decide +kernel

/-- **C78** (use).  If there is at least one file of each kind and all paths are ordinary, the
program reads back exactly the three sorted lists. -/
theorem C78_read_back (entries : Listing) (hp : ∀ e ∈ entries, PlainPath e.1)
    (hne : ∀ k ∈ ["velocities".toList, "coordinate".toList, "particles".toList],
      ofKindPath k entries ≠ []) :
    ∃ V C P : List (List Char),
      readPaths (some (createLists entries).velocity) = .ok (V.map String.ofList) ∧
      readPaths (some (createLists entries).coordinate) = .ok (C.map String.ofList) ∧
      readPaths (some (createLists entries).particle) = .ok (P.map String.ofList) ∧
      V.Perm (ofKindPath "velocities".toList entries) ∧
      C.Perm (ofKindPath "coordinate".toList entries) ∧
      P.Perm (ofKindPath "particles".toList entries) ∧
      ∀ l ∈ [V, C, P], l.Pairwise fun x y => strLe x y = true := by
  obtain ⟨V, C, P, h1, h2, h3, h4, h5, h6, h7⟩ := C78_lists_partial entries
  have hplain : ∀ k, ∀ f ∈ ofKindPath k entries, PlainPath f := by
    intro k f hf
    obtain ⟨e, he, rfl⟩ := List.mem_map.1 hf
    exact hp e (List.mem_filter.1 he).1
  have hnil : ∀ {l : List (List Char)} {k}, l.Perm (ofKindPath k entries) →
      ofKindPath k entries ≠ [] → l ≠ [] := by
    rintro l k hperm hk rfl
    exact hk hperm.symm.eq_nil
  refine ⟨V, C, P, ?_, ?_, ?_, h4, h5, h6, h7⟩
  · rw [h1]
    exact readPaths_plain (hnil h4 (hne _ (by simp))) fun f hf => hplain _ f (h4.mem_iff.1 hf)
  · rw [h2]
    exact readPaths_plain (hnil h5 (hne _ (by simp))) fun f hf => hplain _ f (h5.mem_iff.1 hf)
  · rw [h3]
    exact readPaths_plain (hnil h6 (hne _ (by simp))) fun f hf => hplain _ f (h6.mem_iff.1 hf)

/-- **C78** (missing kind).  If there is no particle file, the script ends normally -- with no
warning if there is a coordinate file -- and the program raises `EmptyDataError`. -/
theorem C78_missing_particles (entries : Listing) (h : ofKindPath "particles".toList entries = []) :
    readPaths (some (createLists entries).particle) = .error .emptyDataError ∧
    (ofKindPath "velocities".toList entries ≠ [] →
      ofKindPath "coordinate".toList entries ≠ [] → (createLists entries).warnings = []) := by
  obtain ⟨V, C, P, h1, h2, h3, h4, h5, h6, h7⟩ := C78_lists_partial entries
  constructor
  · rw [h] at h6
    obtain rfl := h6.eq_nil
    rw [h3]
    rfl
  · intro hv hc
    obtain ⟨v, c, hv', hc', hw⟩ := warnings_cases entries
    rw [hw]
    cases v <;> cases c <;> simp_all

/-- **C78** (time order).  If the velocity files are `stem` + `w`-digit index + `suffix`, the
velocity list is in increasing order of the index, whatever the order in which the file system
lists them. -/
theorem C78_time_order (entries : Listing) (stem suffix : List Char) (w : ℕ) (indices : List ℕ)
    (hw : ∀ i ∈ indices, i < 10 ^ w)
    (hm : (ofKindPath "velocities".toList entries).Perm
      (indices.map fun i => stem ++ padded w i ++ suffix)) :
    (createLists entries).velocity = writeList ((indices.mergeSort (fun a b => decide (a ≤ b))).map
      fun i => stem ++ padded w i ++ suffix) := by
  obtain ⟨V, C, P, h1, -, -, h4, -, -, h7⟩ := C78_lists_partial entries
  rw [h1]
  congr 1
  refine sortedLe_eq (h7 V (by simp)) ?_
    (h4.trans (hm.trans ((List.mergeSort_perm _ _).map _).symm))
  rw [List.pairwise_map]
  have hs : (indices.mergeSort (fun a b => decide (a ≤ b))).Pairwise
      (fun a b => decide (a ≤ b) = true) :=
    List.pairwise_mergeSort (by intro a b c; simp; omega) (by intro a b; simp; omega) _
  refine List.Pairwise.imp_of_mem ?_ hs
  intro a b ha hb hab
  have ha' := hw a ((List.mergeSort_perm _ _).mem_iff.1 ha)
  have hb' := hw b ((List.mergeSort_perm _ _).mem_iff.1 hb)
  rw [List.append_assoc, List.append_assoc, strLe_append_left, strLe_padded,
    Nat.mod_eq_of_lt ha', Nat.mod_eq_of_lt hb']
  exact hab

/-! ## A concrete directory -/

/-- Two velocity files out of order, one coordinate file, one particle file, one directory. -/
def exDirectory : Listing :=
  [("in/velocities_02.mat".toList, "velocities_02.mat".toList),
    ("in/velocities_01.mat".toList, "velocities_01.mat".toList), ("in/old".toList, "old".toList),
    ("in/coordinate.mat".toList, "coordinate.mat".toList),
    ("in/particles.mat".toList, "particles.mat".toList)]

example : (createLists exDirectory).velocity =
    "in/velocities_01.mat\nin/velocities_02.mat\n".toList := by
  rw [C78_time_order exDirectory "in/velocities_".toList ".mat".toList 2 [2, 1] (by decide)
    (by decide +kernel)]
  simp [List.mergeSort, List.MergeSort.Internal.splitInTwo, padded, writeList]

example : (∀ k ∈ ["velocities".toList, "coordinate".toList, "particles".toList],
      ofKindPath k exDirectory ≠ []) ∧
    (∀ e ∈ exDirectory, ∀ k ∈ ["velocities".toList, "coordinate".toList, "particles".toList],
      (k <:+: e.1 → k <:+: e.2)) ∧ (∀ e ∈ exDirectory, e.2 <:+: e.1) := by
  decide +kernel

example : ∀ e ∈ exDirectory, PlainPath e.1 := by
  intro e he
  simp only [exDirectory, List.mem_cons, List.not_mem_nil, or_false] at he
  rcases he with rfl | rfl | rfl | rfl | rfl <;>
    exact ⟨by decide, by decide, by decide, by decide +kernel⟩

example : (ofKindPath "velocities".toList exDirectory).Perm
    ([2, 1].map fun i => "in/velocities_".toList ++ padded 2 i ++ ".mat".toList) := by
  decide +kernel

example : ofKindPath "particles".toList [("in/coordinate.mat".toList, "coordinate.mat".toList),
    ("in/velocities.mat".toList, "velocities.mat".toList)] = [] := by decide +kernel

end Verif
