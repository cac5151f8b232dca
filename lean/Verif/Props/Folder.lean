import Verif.Lemmas.Disk
import Verif.Props.Api

/-!
# C99: the output folder
-/

namespace Verif

variable {α : Type}

/-! ## Making the folder -/

/-- **C99** (report, partial).  For a path that does not contain both `.` and `..`: the constructor
prints no error exactly if every location the path passes is a directory or can be made one, and then
all of them are directories.  Missing: paths with both, see `C99_report_fails`. -/
theorem C99_report_partial {d : Disk α} (ht : d.Tree) {p : PathStr} (h0 : p ≠ []) (hs : Straight p) :
    ((d.openFolder p).2 = [] ↔ ∀ x ∈ d.way p, d.Available x) ∧
    ((d.openFolder p).2 = [] → ∀ x ∈ d.way p, (d.openFolder p).1.node x = some .dir) := by
  have m := Disk.makes ht h0
  rw [Disk.openFolder_snd, Disk.openFolder_fst, Disk.way_eq]
  have hs' : ['.', '.'] ∉ pathNames p ∨ ['.'] ∉ pathNames p := by
    rw [pathNames_eq]
    exact hs
  refine ⟨⟨fun h x hx => ?_, fun h => ?_⟩, fun h => m.works h hs'⟩
  · have hd := m.works h hs' x hx
    rcases m.grows.node x with e | ⟨e1, e2, -, -⟩
    · exact .inl (e ▸ hd)
    · exact .inr ⟨e1, e2⟩
  · cases hr : (d.makedirs p).2 with
    | none => rfl
    | some e =>
      obtain ⟨x, hx, hx'⟩ := m.honest (m.fails e hr)
      exact absurd (h x hx) hx'

/-- **C99** (what the constructor changes).  Whatever it reports: nothing is removed or overwritten;
the only new entries are directories on the way to the folder, made where entries may be made. -/
theorem C99_folder_only {d : Disk α} (ht : d.Tree) (p : PathStr) (x : Loc) :
    (d.openFolder p).1.node x = d.node x ∨
    d.node x = none ∧ d.locked x.dropLast = false ∧ (d.openFolder p).1.node x = some .dir ∧
      x ∈ d.way p := by
  rw [Disk.openFolder_fst]
  by_cases h0 : p = []
  · subst h0
    left
    rw [Disk.makedirs, dif_neg fun h => h.1 (by decide)]
    simp [Disk.mkdirOk, Disk.mkdir]
  · rw [Disk.way_eq]
    exact (Disk.makes ht h0).grows.node x

/-- A disk given by the list of its entries, nothing locked. -/
def diskOf (cwd : Loc) (entries : List (Loc × Node α)) (locked : List Loc) : Disk α :=
  ⟨cwd, fun x => (entries.find? fun e => e.1 = x).map Prod.snd, fun x => x ∈ locked⟩

theorem diskOf_some {cwd : Loc} {entries : List (Loc × Node α)} {locked : List Loc} {x : Loc}
    (h : ((diskOf cwd entries locked).node x).isSome) : ∃ e ∈ entries, e.1 = x := by
  simp only [diskOf, Option.isSome_map, List.find?_isSome, decide_eq_true_eq] at h
  exact h

theorem diskOf_tree {cwd : Loc} {entries : List (Loc × Node α)} {locked : List Loc}
    (h1 : (diskOf cwd entries locked).node [] = some .dir)
    (h2 : (diskOf cwd entries locked).node cwd = some .dir)
    (h3 : ∀ e ∈ entries, e.1 = [] ∨ (diskOf cwd entries locked).node e.1.dropLast = some .dir) :
    (diskOf cwd entries locked).Tree := by
  refine ⟨h1, h2, fun loc name h => ?_⟩
  obtain ⟨e, he, hx⟩ := diskOf_some h
  rcases h3 e he with g | g
  · rw [hx] at g
    simp at g
  · rwa [hx, List.dropLast_concat] at g

def tmpName : List Char := "w".toList

/-- The working directory `/w`, with a file `outputs` in the place of the folder. -/
def blockedDisk : Disk ℕ :=
  diskOf [tmpName] [([], .dir), ([tmpName], .dir), ([tmpName, "outputs".toList], .file 7)] []

/-- The working directory `/w`. -/
def emptyDisk : Disk ℕ := diskOf [tmpName] [([], .dir), ([tmpName], .dir)] []

theorem blockedDisk_tree : blockedDisk.Tree :=
  diskOf_tree (by decide) (by decide) (by decide)

theorem emptyDisk_tree : emptyDisk.Tree :=
  diskOf_tree (by decide) (by decide) (by decide)

theorem emptyDisk_way :
    emptyDisk.way (experimentFolder "run".toList) =
      [[tmpName], [tmpName, "outputs".toList], [tmpName, "outputs".toList, "run".toList]] := by
  decide +kernel

example : (emptyDisk.openFolder (experimentFolder "run".toList)).2 = [] :=
  (C99_report_partial emptyDisk_tree (by decide) (.inl (by decide +kernel))).1.2 (by
    rw [emptyDisk_way]
    intro x hx
    simp only [List.mem_cons, List.not_mem_nil, or_false] at hx
    rcases hx with rfl | rfl | rfl
    · exact .inl (by decide)
    · exact .inr (by decide)
    · exact .inr (by decide))

/-- **C99 is false of the code (report).**  For the folder `x/../outputs/.` where `outputs` is a
file and `x` is missing, no error is printed although the folder is not there and cannot be made. -/
theorem C99_report_fails :
    (blockedDisk.openFolder "x/../outputs/.".toList).2 = [] ∧
    ¬ blockedDisk.Available [tmpName, "outputs".toList] ∧
    blockedDisk.target "x/../outputs/.".toList = [tmpName, "outputs".toList] ∧
    (blockedDisk.openFolder "x/../outputs/.".toList).1.node [tmpName, "outputs".toList] =
      some (.file 7) := by
  refine ⟨by decide +kernel, ?_, by decide +kernel, by decide +kernel⟩
  rintro (h | ⟨h, -⟩) <;> revert h <;> decide

/-! ## Saving the files -/

/-- **C99** (lost).  When the constructor prints an error, no file can be saved in the folder, under
whichever name. -/
theorem C99_lost {d : Disk α} (ht : d.Tree) {p : PathStr} (h0 : p ≠ [])
    (h : (d.openFolder p).2 ≠ []) {name : List Char} (hn : FileName name) (content : α) :
    ∃ e, (d.openFolder p).1.writeFile p name content = .error e := by
  rw [Disk.openFolder_fst]
  rw [ne_eq, Disk.openFolder_snd] at h
  have m := Disk.makes ht h0
  obtain ⟨e, he⟩ := Option.ne_none_iff_exists'.1 h
  refine Disk.writeFile_blocked hn ?_ content
  rw [m.grows.start]
  exact m.fails e he

/-- **C99 is false of the code (API, empty name).**  `output_dir_name=""` prints an error, and then
the files are saved in the working directory. -/
theorem C99_empty_name_fails {d : Disk α} (ht : d.Tree) (hl : d.locked d.cwd = false)
    {name : List Char} (hn : FileName name) (hf : d.node (d.cwd ++ [name]) = none) (content : α) :
    (d.openFolder []).2 = ["Error creating output folder: "] ∧
    ∃ d', (d.openFolder []).1.writeFile [] name content = .ok d' ∧
      d'.node (d.cwd ++ [name]) = some (.file content) := by
  have hm : d.makedirs [] = (d, some .noEntry) := by
    rw [Disk.makedirs, dif_neg fun h => h.1 (by decide)]
    simp [Disk.mkdirOk, Disk.mkdir, Disk.isDir, Disk.stat]
  have ho : d.openFolder [] = (d, ["Error creating output folder: "]) := by
    rw [Disk.openFolder, hm]
  rw [ho]
  refine ⟨rfl, d.set (d.cwd ++ [name]) (.file content), ?_, by simp [Disk.set]⟩
  have hc : d.Clear (d.start []) (pathNames []) := by
    intro x hx
    rw [pathNames_nil, stations, List.mem_singleton] at hx
    rw [hx]
    exact ht.cwd
  rw [Disk.writeFile_clear hn hc]
  have hd : destination (d.start []) (pathNames []) = d.cwd := rfl
  rw [hd, hf]
  simp [hl]

example : FileName "ftle_v0.mat".toList := ⟨by decide, by decide, by decide, by decide⟩

/-- The last content saved under a name. -/
def lastSaved (files : List (List Char × α)) (name : List Char) : Option α :=
  (files.reverse.find? fun f => f.1 = name).map Prod.snd

theorem lastSaved_cons (f : List Char × α) (files : List (List Char × α)) (name : List Char) :
    lastSaved (f :: files) name =
      ((lastSaved files name).or (if f.1 = name then some f.2 else none)) := by
  unfold lastSaved
  rw [List.reverse_cons, List.find?_append, Option.map_or]
  by_cases h : f.1 = name <;> simp [h]

/-- **C99** (contents).  In a folder that is there and in which the files can be saved, all files
are saved; afterwards each name has the content saved last under it, and everything else on the disk
is as before. -/
theorem C99_contents {d : Disk α} {p : PathStr} (hd : ∀ x ∈ d.way p, d.node x = some .dir)
    (hl : d.locked (d.target p) = false) :
    ∀ files : List (List Char × α),
      (∀ f ∈ files, FileName f.1 ∧ d.node (d.target p ++ [f.1]) ≠ some .dir ∧
        d.locked (d.target p ++ [f.1]) = false) →
      (d.writeFiles p files).2 = none ∧
      (∀ name, (d.writeFiles p files).1.node (d.target p ++ [name]) =
        ((lastSaved files name).map Node.file).or (d.node (d.target p ++ [name]))) ∧
      ∀ x, (∀ f ∈ files, x ≠ d.target p ++ [f.1]) → (d.writeFiles p files).1.node x = d.node x := by
  intro files
  induction files generalizing d with
  | nil => exact fun _ => ⟨rfl, fun _ => rfl, fun _ _ => rfl⟩
  | cons f files ih =>
    intro hf
    obtain ⟨h1, h2, h3⟩ := hf f (by simp)
    have hc : d.Clear (d.start p) (pathNames p) := by
      rw [Disk.way_eq] at hd
      exact hd
    have hw : d.writeFile p f.1 f.2 = .ok (d.set (d.target p ++ [f.1]) (.file f.2)) := by
      rw [Disk.writeFile_clear h1 hc, ← Disk.target_eq]
      cases hn : d.node (d.target p ++ [f.1]) with
      | none => simp [hl]
      | some n =>
        cases n with
        | dir => exact absurd hn h2
        | file _ => simp [h3]
    set d₁ := d.set (d.target p ++ [f.1]) (.file f.2) with hd₁
    have ht : d₁.target p = d.target p := rfl
    have hstep : d.writeFiles p (f :: files) = d₁.writeFiles p files := by
      rw [Disk.writeFiles, hw]
    have hne : ∀ x, x ≠ d.target p ++ [f.1] → d₁.node x = d.node x := by
      intro x hx
      simp [hd₁, Disk.set, hx]
    obtain ⟨i1, i2, i3⟩ := ih (d := d₁) (fun x hx => by
        have hx' : d.node x = some .dir := hd x hx
        rw [hne x, hx']
        rintro rfl
        exact h2 hx') hl (fun g hg => by
        obtain ⟨g1, g2, g3⟩ := hf g (by simp [hg])
        refine ⟨g1, ?_, g3⟩
        rw [ht]
        by_cases he : g.1 = f.1
        · simp [hd₁, Disk.set, he]
        · rw [hne _ (by simpa using he)]
          exact g2)
    rw [hstep]
    refine ⟨i1, fun name => ?_, fun x hx => ?_⟩
    · rw [ht] at i2
      rw [i2, lastSaved_cons]
      cases lastSaved files name with
      | some c => simp
      | none =>
        by_cases he : f.1 = name
        · simp [he, hd₁, Disk.set]
        · rw [hne _ (by simpa [eq_comm] using he)]
          simp [he]
    · rw [i3 x (fun g hg => hx g (by simp [hg])), hne x (hx f (by simp))]

/-- **C99** (a file that cannot be saved).  If a directory or a protected file has the name of a file
of the run, saving ends there with an error: the files before it are saved, those after it are not. -/
theorem C99_failed_file {d : Disk α} {p : PathStr} (hd : ∀ x ∈ d.way p, d.node x = some .dir)
    (hl : d.locked (d.target p) = false) {pre post : List (List Char × α)} {f : List Char × α}
    (hpre : ∀ g ∈ pre, FileName g.1 ∧ d.node (d.target p ++ [g.1]) ≠ some .dir ∧
      d.locked (d.target p ++ [g.1]) = false) (hf : FileName f.1)
    (hbad : d.node (d.target p ++ [f.1]) = some .dir ∨
      (d.node (d.target p ++ [f.1])).isSome ∧ d.locked (d.target p ++ [f.1]) = true) :
    (d.writeFiles p (pre ++ f :: post)).2 ≠ none ∧
    (∀ name, (d.writeFiles p (pre ++ f :: post)).1.node (d.target p ++ [name]) =
      ((lastSaved pre name).map Node.file).or (d.node (d.target p ++ [name]))) ∧
    ∀ x, (∀ g ∈ pre, x ≠ d.target p ++ [g.1]) →
      (d.writeFiles p (pre ++ f :: post)).1.node x = d.node x := by
  have happ : ∀ (pre : List (List Char × α)) (d : Disk α), (d.writeFiles p pre).2 = none →
      (∃ e, (d.writeFiles p pre).1.writeFile p f.1 f.2 = .error e) →
      (d.writeFiles p (pre ++ f :: post)).2 ≠ none ∧
      (d.writeFiles p (pre ++ f :: post)).1 = (d.writeFiles p pre).1 := by
    intro pre
    induction pre with
    | nil =>
      rintro d - ⟨e, he⟩
      have he : d.writeFile p f.1 f.2 = .error e := he
      have hr : d.writeFiles p (f :: post) = (d, some e) := by rw [Disk.writeFiles, he]
      rw [List.nil_append, hr]
      exact ⟨by simp, rfl⟩
    | cons g pre ih =>
      intro d h1 h2
      rw [List.cons_append, Disk.writeFiles]
      rw [Disk.writeFiles] at h1 h2 ⊢
      cases hw : d.writeFile p g.1 g.2 with
      | error e => rw [hw] at h1; cases h1
      | ok d' =>
        rw [hw] at h1 h2
        exact ih d' h1 h2
  have hcwd : ∀ (pre : List (List Char × α)) (d : Disk α), (∀ g ∈ pre, FileName g.1) →
      (d.writeFiles p pre).1.cwd = d.cwd ∧ (d.writeFiles p pre).1.locked = d.locked := by
    intro pre
    induction pre with
    | nil => exact fun _ _ => ⟨rfl, rfl⟩
    | cons g pre ih =>
      intro d hg
      rw [Disk.writeFiles]
      cases hw : d.writeFile p g.1 g.2 with
      | error e => exact ⟨rfl, rfl⟩
      | ok d' =>
        obtain ⟨i1, i2⟩ := ih d' fun g hg' => hg g (by simp [hg'])
        obtain ⟨x, n, rfl⟩ : ∃ x n, d' = d.set x n := by
          by_cases hc : d.Clear (d.start p) (pathNames p)
          · rw [Disk.writeFile_clear (hg g (by simp)) hc] at hw
            split at hw
            · cases hw
            · split at hw
              · cases hw
              · exact ⟨_, _, (Except.ok.inj hw).symm⟩
            · split at hw
              · cases hw
              · exact ⟨_, _, (Except.ok.inj hw).symm⟩
          · obtain ⟨e, he⟩ := Disk.writeFile_blocked (hg g (by simp)) hc g.2
            rw [he] at hw
            cases hw
        exact ⟨i1, i2⟩
  obtain ⟨c1, c2, c3⟩ := C99_contents hd hl pre hpre
  obtain ⟨w1, w2⟩ := hcwd pre d fun g hg => (hpre g hg).1
  set d₁ := (d.writeFiles p pre).1 with hd₁
  have hst : d₁.start p = d.start p := by simp [Disk.start, w1]
  have hnot : ∀ g ∈ pre, d.target p ++ [f.1] ≠ d.target p ++ [g.1] := by
    intro g hg h
    obtain ⟨-, g2, g3⟩ := hpre g hg
    rw [← h] at g2 g3
    rcases hbad with hb | ⟨-, hb⟩
    · exact g2 hb
    · rw [g3] at hb
      cases hb
  have hnode := c3 _ hnot
  have herr : ∃ e, d₁.writeFile p f.1 f.2 = .error e := by
    by_cases hc : d₁.Clear (d₁.start p) (pathNames p)
    · rw [Disk.writeFile_clear hf hc, hst, ← Disk.target_eq, hnode, w2]
      rcases hbad with hb | ⟨hb, hb'⟩
      · rw [hb]
        exact ⟨_, rfl⟩
      · cases hn : d.node (d.target p ++ [f.1]) with
        | none => rw [hn] at hb; cases hb
        | some n => cases n <;> simp [hb']
    · exact Disk.writeFile_blocked hf hc f.2
  obtain ⟨a1, a2⟩ := happ pre d c1 herr
  rw [a2]
  exact ⟨a1, c2, c3⟩

/-- A protected file `b` in the working directory: of the files `a`, `b`, `c` only `a` is saved. -/
def guardedDisk : Disk ℕ :=
  diskOf [tmpName] [([], .dir), ([tmpName], .dir), ([tmpName, ['b']], .file 7)] [[tmpName, ['b']]]

example : (guardedDisk.writeFiles ['.'] ([(['a'], 1)] ++ (['b'], 2) :: [(['c'], 3)])).2 ≠ none ∧
    (guardedDisk.writeFiles ['.'] ([(['a'], 1)] ++ (['b'], 2) :: [(['c'], 3)])).1.node
      (guardedDisk.target ['.'] ++ [['a']]) = some (.file 1) := by
  obtain ⟨h1, h2, -⟩ := C99_failed_file (d := guardedDisk) (p := ['.']) (pre := [(['a'], 1)])
    (post := [(['c'], 3)]) (f := (['b'], 2)) (by decide +kernel) (by decide +kernel)
    (fun g hg => by
      obtain rfl := List.mem_singleton.1 hg
      exact ⟨⟨by decide, by decide, by decide, by decide⟩, by decide +kernel, by decide +kernel⟩)
    ⟨by decide, by decide, by decide, by decide⟩ (.inr (by decide +kernel))
  exact ⟨h1, by rw [h2]; decide +kernel⟩

/-- **C99** (a run).  The constructor and the saving of the files together: if every location on the
way to the folder is available and the files can be saved, then no error occurs; each name has the
content saved last under it; and the rest of the disk is as before except for the directories on
the way. -/
theorem C99_saved_partial {d : Disk α} (ht : d.Tree) {p : PathStr} (h0 : p ≠ []) (hs : Straight p)
    (ha : ∀ x ∈ d.way p, d.Available x) (hl : d.locked (d.target p) = false)
    (files : List (List Char × α))
    (hf : ∀ f ∈ files, FileName f.1 ∧ d.node (d.target p ++ [f.1]) ≠ some .dir ∧
      d.locked (d.target p ++ [f.1]) = false ∧ d.target p ++ [f.1] ∉ d.way p) :
    (d.openFolder p).2 = [] ∧ ((d.openFolder p).1.writeFiles p files).2 = none ∧
    (∀ name c, ((d.openFolder p).1.writeFiles p files).1.node (d.target p ++ [name]) =
        some (.file c) ↔
      lastSaved files name = some c ∨
        lastSaved files name = none ∧ d.node (d.target p ++ [name]) = some (.file c)) ∧
    ∀ x, (∀ f ∈ files, x ≠ d.target p ++ [f.1]) →
      ((d.openFolder p).1.writeFiles p files).1.node x = d.node x ∨
      d.node x = none ∧ x ∈ d.way p ∧
        ((d.openFolder p).1.writeFiles p files).1.node x = some .dir := by
  obtain ⟨r1, r2⟩ := C99_report_partial ht h0 hs
  have hmsg := r1.2 ha
  have hm := (Disk.makes ht h0).grows
  rw [← Disk.openFolder_fst] at hm
  have hw : (d.openFolder p).1.way p = d.way p := by
    rw [Disk.way_eq, Disk.way_eq, hm.start]
  have htar : (d.openFolder p).1.target p = d.target p := by
    rw [Disk.target_eq, Disk.target_eq, hm.start]
  obtain ⟨c1, c2, c3⟩ := C99_contents (d := (d.openFolder p).1) (p := p) (by rw [hw]; exact r2 hmsg)
    (by rw [htar, hm.locked]; exact hl) files (fun f hf' => by
      obtain ⟨f1, f2, f3, f4⟩ := hf f hf'
      rw [htar, hm.locked]
      refine ⟨f1, ?_, f3⟩
      rcases C99_folder_only ht p (d.target p ++ [f.1]) with e | ⟨-, -, -, e⟩
      · rw [e]
        exact f2
      · exact absurd e f4)
  rw [htar] at c2 c3
  refine ⟨hmsg, c1, fun name c => ?_, fun x hx => ?_⟩
  · rw [c2]
    cases hls : lastSaved files name with
    | some c' => simp
    | none =>
      simp only [Option.map_none, Option.none_or, reduceCtorEq, false_or, true_and]
      rcases C99_folder_only ht p (d.target p ++ [name]) with e | ⟨e1, -, e2, -⟩
      · rw [e]
      · rw [e1, e2]
        simp
  · rw [c3 x hx]
    rcases C99_folder_only ht p x with e | ⟨e1, -, e2, e3⟩
    · exact .inl e
    · exact .inr ⟨e1, e3, e2⟩

theorem emptyDisk_available : ∀ x ∈ emptyDisk.way (experimentFolder "run".toList),
    emptyDisk.Available x := by
  rw [emptyDisk_way]
  intro x hx
  simp only [List.mem_cons, List.not_mem_nil, or_false] at hx
  rcases hx with rfl | rfl | rfl
  · exact .inl (by decide)
  · exact .inr (by decide)
  · exact .inr (by decide)

theorem emptyDisk_target : emptyDisk.target (experimentFolder "run".toList) =
    [tmpName, "outputs".toList, "run".toList] := by
  decide +kernel

example : ((emptyDisk.openFolder (experimentFolder "run".toList)).1.writeFiles
    (experimentFolder "run".toList) [("ftle_a.mat".toList, 1), ("ftle_a.mat".toList, 2)]).1.node
      [tmpName, "outputs".toList, "run".toList, "ftle_a.mat".toList] = some (.file 2) := by
  have := (C99_saved_partial emptyDisk_tree (p := experimentFolder "run".toList) (by decide)
    (.inl (by decide +kernel)) emptyDisk_available rfl
    [("ftle_a.mat".toList, 1), ("ftle_a.mat".toList, 2)] (by
      intro f hf
      rw [emptyDisk_target, emptyDisk_way]
      have : f.1 = "ftle_a.mat".toList := by
        simp only [List.mem_cons, List.not_mem_nil, or_false] at hf
        rcases hf with rfl | rfl <;> rfl
      rw [this]
      exact ⟨⟨by decide, by decide, by decide, by decide⟩, by decide, rfl, by decide⟩)).2.2.1
    "ftle_a.mat".toList 2
  rw [emptyDisk_target] at this
  exact this.2 (.inl (by decide))

/-- **C99** (a new folder, partial).  If nothing is at the place of the folder before the run, the
files in it afterwards are exactly those of the run.  Missing: folders that are already there, see
`C99_stale_fails`. -/
theorem C99_fresh_partial {d : Disk α} (ht : d.Tree) {p : PathStr} (h0 : p ≠ []) (hs : Straight p)
    (ha : ∀ x ∈ d.way p, d.Available x) (hl : d.locked (d.target p) = false)
    (files : List (List Char × α))
    (hf : ∀ f ∈ files, FileName f.1 ∧ d.locked (d.target p ++ [f.1]) = false ∧
      d.target p ++ [f.1] ∉ d.way p)
    (hnew : d.node (d.target p) = none) (name : List Char) (c : α) :
    ((d.openFolder p).1.writeFiles p files).1.node (d.target p ++ [name]) = some (.file c) ↔
      lastSaved files name = some c := by
  have hn : ∀ m, d.node (d.target p ++ [m]) = none := by
    intro m
    by_contra h
    have := ht.parent (d.target p) m (Option.isSome_iff_ne_none.2 h)
    rw [hnew] at this
    cases this
  have := (C99_saved_partial ht h0 hs ha hl files fun f hf' =>
    ⟨(hf f hf').1, by rw [hn]; simp, (hf f hf').2⟩).2.2.1 name c
  rw [this, hn]
  simp

/-- **C99 is false of the code (stale files).**  In the folder of a repeated experiment, every file
whose name the new run does not use is still there after it, next to the new ones. -/
theorem C99_stale_fails {d : Disk α} (ht : d.Tree) {p : PathStr} (h0 : p ≠ []) (hs : Straight p)
    (ha : ∀ x ∈ d.way p, d.Available x) (hl : d.locked (d.target p) = false)
    (files : List (List Char × α))
    (hf : ∀ f ∈ files, FileName f.1 ∧ d.node (d.target p ++ [f.1]) ≠ some .dir ∧
      d.locked (d.target p ++ [f.1]) = false ∧ d.target p ++ [f.1] ∉ d.way p)
    {old : List Char} {c : α} (ho : d.node (d.target p ++ [old]) = some (.file c))
    (hold : ∀ f ∈ files, f.1 ≠ old) :
    (d.openFolder p).2 = [] ∧ ((d.openFolder p).1.writeFiles p files).2 = none ∧
    ((d.openFolder p).1.writeFiles p files).1.node (d.target p ++ [old]) = some (.file c) := by
  obtain ⟨r1, r2, r3, -⟩ := C99_saved_partial ht h0 hs ha hl files hf
  refine ⟨r1, r2, (r3 old c).2 (.inr ⟨?_, ho⟩)⟩
  unfold lastSaved
  rw [Option.map_eq_none_iff, List.find?_eq_none]
  intro f hf'
  simpa using hold f (List.mem_reverse.1 hf')

/-- The folder of an earlier run with `ftle_b.mat` in it. -/
def usedDisk : Disk ℕ :=
  diskOf [tmpName] [([], .dir), ([tmpName], .dir), ([tmpName, "outputs".toList], .dir),
    ([tmpName, "outputs".toList, "run".toList], .dir),
    ([tmpName, "outputs".toList, "run".toList, "ftle_b.mat".toList], .file 9)] []

example : ((usedDisk.openFolder (experimentFolder "run".toList)).1.writeFiles
    (experimentFolder "run".toList) [("ftle_a.mat".toList, 1)]).1.node
      [tmpName, "outputs".toList, "run".toList, "ftle_b.mat".toList] = some (.file 9) := by
  have htar : usedDisk.target (experimentFolder "run".toList) =
      [tmpName, "outputs".toList, "run".toList] := by decide +kernel
  have hway : usedDisk.way (experimentFolder "run".toList) =
      [[tmpName], [tmpName, "outputs".toList], [tmpName, "outputs".toList, "run".toList]] := by
    decide +kernel
  have := (C99_stale_fails (d := usedDisk) (diskOf_tree (by decide) (by decide) (by decide))
    (p := experimentFolder "run".toList) (by decide) (.inl (by decide +kernel)) (by
      rw [hway]
      intro x hx
      simp only [List.mem_cons, List.not_mem_nil, or_false] at hx
      rcases hx with rfl | rfl | rfl <;> exact .inl (by decide)) rfl
    [("ftle_a.mat".toList, 1)] (by
      intro f hf
      rw [htar, hway]
      simp only [List.mem_singleton] at hf
      subst hf
      exact ⟨⟨by decide, by decide, by decide, by decide⟩, by decide, rfl, by decide⟩)
    (old := "ftle_b.mat".toList) (c := 9) (by rw [htar]; decide) (by
      intro f hf
      simp only [List.mem_singleton] at hf
      subst hf
      decide)).2.2
  rw [htar] at this
  exact this

/-! ## Where the files are -/

theorem stations_prefix {loc : Loc} {names : List (List Char)} (h : ['.', '.'] ∉ names) :
    ∀ x ∈ stations loc names, loc <+: x := by
  induction names generalizing loc with
  | nil =>
    intro x hx
    rw [stations, List.mem_singleton] at hx
    exact hx ▸ List.prefix_rfl
  | cons n ns ih =>
    rw [List.mem_cons, not_or] at h
    intro x hx
    rw [stations, List.mem_cons] at hx
    rcases hx with rfl | hx
    · exact List.prefix_rfl
    · refine List.IsPrefix.trans ?_ (ih h.2 x hx)
      unfold move
      split
      · exact List.prefix_rfl
      · rw [if_neg fun e => h.1 e.symm]
        exact List.prefix_append _ _

theorem experimentFolder_names {name : PathStr} (h : isAbs name = false) :
    pathNames (experimentFolder name) = "outputs".toList :: pathNames name ∧
    isAbs (experimentFolder name) = false := by
  unfold experimentFolder pathJoin
  rw [if_neg (by simp [h]), if_neg (by decide)]
  constructor
  · rw [pathNames_slash]
    rfl
  · rfl

/-- **C99** (place, partial).  For an experiment name that is not an absolute path and has no `..`,
everything a run creates or changes is in `outputs` of the working directory.  Missing: other names,
see `C99_place_fails`. -/
theorem C99_place_partial {d : Disk α} (ht : d.Tree) {name : PathStr} (habs : name.head? ≠ some '/')
    (hup : ['.', '.'] ∉ namesIn name) (files : List (List Char × α))
    (hf : ∀ f ∈ files, FileName f.1) (x : Loc)
    (hx : ((d.openFolder (experimentFolder name)).1.writeFiles (experimentFolder name) files).1.node
      x ≠ d.node x) : d.cwd ++ ["outputs".toList] <+: x := by
  have habs' : isAbs name = false := by simpa [isAbs] using habs
  obtain ⟨n1, n2⟩ := experimentFolder_names habs'
  set p := experimentFolder name with hp
  have h0 : p ≠ [] := by
    intro h
    rw [h] at n1
    simp [pathNames_nil] at n1
  rw [← pathNames_eq] at hup
  have hg := (Disk.makes ht h0).grows
  rw [← Disk.openFolder_fst] at hg
  have hst : ∀ e : Disk α, e.start p = e.cwd := fun e => by simp [Disk.start, n2]
  have hout : move d.cwd "outputs".toList = d.cwd ++ ["outputs".toList] := by
    rw [move, if_neg (by decide), if_neg (by decide)]
  have hpre : ∀ y ∈ stations d.cwd (pathNames p), y = d.cwd ∨ d.cwd ++ ["outputs".toList] <+: y := by
    rw [n1, stations, hout]
    intro y hy
    rw [List.mem_cons] at hy
    rcases hy with rfl | hy
    · exact .inl rfl
    · exact .inr (stations_prefix hup y hy)
  have hdest : d.cwd ++ ["outputs".toList] <+: destination d.cwd (pathNames p) := by
    rw [n1]
    have : destination d.cwd ("outputs".toList :: pathNames name) =
        destination (d.cwd ++ ["outputs".toList]) (pathNames name) := by
      simp only [destination, List.foldl_cons, hout]
    rw [this]
    exact stations_prefix hup _ (destination_mem _ _)
  have hw : ∀ (fs : List (List Char × α)) (e : Disk α), e.cwd = d.cwd → (∀ f ∈ fs, FileName f.1) →
      (e.writeFiles p fs).1.node x ≠ e.node x → d.cwd ++ ["outputs".toList] <+: x := by
    intro fs
    induction fs with
    | nil => exact fun e _ _ h => absurd rfl h
    | cons f fs ih =>
      intro e he hfs h
      have hfn := hfs f (by simp)
      rw [Disk.writeFiles] at h
      by_cases hc : e.Clear (e.start p) (pathNames p)
      · rcases hwf : e.writeFile p f.1 f.2 with er | e'
        · simp [hwf] at h
        · have he' : e' = e.set (destination (e.start p) (pathNames p) ++ [f.1]) (.file f.2) := by
            rw [Disk.writeFile_clear hfn hc] at hwf
            split at hwf
            · cases hwf
            · split at hwf
              · cases hwf
              · exact (Except.ok.inj hwf).symm
            · split at hwf
              · cases hwf
              · exact (Except.ok.inj hwf).symm
          simp only [hwf] at h
          by_cases hxe : x = destination (e.start p) (pathNames p) ++ [f.1]
          · rw [hxe, hst, he]
            exact hdest.trans (List.prefix_append _ _)
          · refine ih e' (by rw [he']; exact he) (fun g hg => hfs g (by simp [hg])) ?_
            have : e'.node x = e.node x := by
              rw [he']
              simp [Disk.set, hxe]
            rw [this]
            exact h
      · obtain ⟨er, her⟩ := Disk.writeFile_blocked hfn hc f.2
        simp [her] at h
  by_cases hch : ((d.openFolder p).1.writeFiles p files).1.node x = (d.openFolder p).1.node x
  · rw [hch] at hx
    rcases hg.node x with e | ⟨e1, -, -, e2⟩
    · exact absurd e hx
    · rw [hst] at e2
      rcases hpre x e2 with rfl | h
      · rw [ht.cwd] at e1
        cases e1
      · exact h
  · exact hw files _ hg.cwd hf hch

example : ((emptyDisk.openFolder (experimentFolder "run".toList)).1.writeFiles
    (experimentFolder "run".toList) [("ftle_a.mat".toList, 1)]).1.node
      [tmpName, "outputs".toList, "run".toList, "ftle_a.mat".toList] ≠
    emptyDisk.node [tmpName, "outputs".toList, "run".toList, "ftle_a.mat".toList] := by
  decide +kernel

/-- **C99 is false of the code (place).**  An absolute experiment name is used without `outputs`, and
`..` leads out of it: the file is saved, and nothing is in `outputs`. -/
theorem C99_place_fails :
    (let r := (emptyDisk.openFolder (experimentFolder "/e".toList)).1.writeFiles
        (experimentFolder "/e".toList) [("ftle_a.mat".toList, 1)];
      r.2 = none ∧ r.1.node ["e".toList, "ftle_a.mat".toList] = some (.file 1) ∧
      r.1.node [tmpName, "outputs".toList] = none) ∧
    (let r := (emptyDisk.openFolder (experimentFolder "../../e".toList)).1.writeFiles
        (experimentFolder "../../e".toList) [("ftle_a.mat".toList, 1)];
      r.2 = none ∧ r.1.node ["e".toList, "ftle_a.mat".toList] = some (.file 1)) := by
  decide +kernel

/-! ## When the error is noticed -/

section
variable {K F : Type} [Zero K] [One K] [Add K] [Sub K] [Mul K] [Div K] [NatCast K] [IntCast K]
  [Min K] [Max K] [NumLits K] [DecidableEq K]

theorem pathStem_noSlash (p : String) : '/' ∉ (pathStem p).toList := by
  have hparts : ∀ (l q : List Char), q ∈ splitSlash l → '/' ∉ q := by
    intro l
    induction l with
    | nil => simp [splitSlash]
    | cons c cs ih =>
      intro q hq
      rw [splitSlash] at hq
      split at hq
      · rw [List.mem_cons] at hq
        rcases hq with rfl | hq
        · simp
        · exact ih q hq
      · rename_i hc
        split at hq <;> rename_i heq
        · rw [List.mem_singleton] at hq
          subst hq
          simpa using fun e => hc e.symm
        · rw [List.mem_cons] at hq
          rcases hq with rfl | hq
          · have := ih _ (by rw [heq]; exact List.mem_cons_self ..)
            rw [List.mem_cons, not_or]
            exact ⟨fun e => hc e.symm, this⟩
          · exact ih q (by rw [heq]; exact List.mem_cons_of_mem _ hq)
  have hname : '/' ∉ pathName p.toList := by
    unfold pathName
    cases h : ((splitSlash p.toList).filter fun p => p ≠ [] ∧ p ≠ ['.']).getLast? with
    | none => simp
    | some q =>
      exact hparts _ _ (List.mem_filter.1 (List.mem_of_getLast? h)).1
  unfold pathStem
  rw [String.toList_ofList, stemOfName]
  split
  · rename_i b heq
    split
    · intro h
      refine hname ?_
      have : ∀ c ∈ b, c ∈ (pathName p.toList) := by
        intro c hc
        have h1 : c ∈ (pathName p.toList).reverse.dropWhile (· ≠ '.') := by
          rw [heq]
          exact List.mem_cons_of_mem _ hc
        exact List.mem_reverse.1 ((List.dropWhile_sublist _).mem h1)
      exact this _ (List.mem_reverse.1 h)
    · exact hname
  · exact hname

/-- **C99 is false of the code (time of the report).**  An output folder that cannot be made does
not end the program: for every task whose identifier has no slash (`pathStem_noSlash`), the whole
field is computed, and only then the task fails because its file cannot be saved. -/
theorem C99_late_fails {d : Disk α} (ht : d.Tree) {p : PathStr} (h0 : p ≠ [])
    (h : (d.openFolder p).2 ≠ []) {ext : String} (hext : '/' ∉ ext.toList)
    (content : List F → NDArray K → α) (prepare : WriteFn K F)
    (env : Env K F) (queue : Bool) (S : Solver K) {id : String}
    (hid : S.source.id env = .ok id) (hslash : '/' ∉ id.toList) {field : List F}
    (hok : (S.run env queue none).result = .ok (some field))
    (hprep : ∀ name c, prepare name field c = none) :
    .computed field ∈
        (S.run env queue (some ((d.openFolder p).1.writeIn p ext content prepare))).trace ∧
    (S.run env queue (some ((d.openFolder p).1.writeIn p ext content prepare))).result =
      .error .osError := by
  have hfile : FileName ("ftle_" ++ id ++ ext).toList := by
    have he : ("ftle_" ++ id ++ ext).toList = 'f' :: 't' :: 'l' :: 'e' :: '_' ::
        (id.toList ++ ext.toList) := by
      simp [String.toList_append]
    rw [he]
    exact ⟨by simp, by simp [hext, hslash], by simp, by simp⟩
  have hw : ∀ c, (d.openFolder p).1.writeIn p ext content prepare ("ftle_" ++ id) field c =
      some .osError := by
    intro c
    obtain ⟨e, he⟩ := C99_lost ht h0 h hfile (content field c)
    simp only [Disk.writeIn, hprep, he]
  unfold Solver.run at hok ⊢
  cases hp : S.source.getParticles env.fs with
  | error e => simp [hp] at hok
  | ok q =>
    simp only [hp, hid] at hok ⊢
    rcases hl : Loop.steps env S.source id queue (List.range S.source.numSteps)
      ⟨S.interp, S.integ, q, []⟩ with ⟨st, _ | e⟩
    · simp only [hl] at hok ⊢
      cases hc : computeFtle env st.particles S.source.numSteps S.source.timestep with
      | error e => simp [hc] at hok
      | ok f =>
        simp only [hc] at hok ⊢
        have hff : f = field := by simpa using hok
        subst hff
        simp [hw]
    · simp [hl] at hok

end

/-- The folder `outputs/run` cannot be made where `outputs` is a file; the run of C73 is lost. -/
example : ∃ field, .computed field ∈ ((⟨.analytical (startBatch exApi 0), exApi.interp,
      Integ.fresh .rk4⟩ : Solver ℚ).run exApiEnv false (some
        ((blockedDisk.openFolder (experimentFolder "run".toList)).1.writeIn
          (experimentFolder "run".toList) ".mat" (fun _ _ => 3) fun _ _ _ => none))).trace := by
  have h : ((⟨.analytical (startBatch exApi 0), exApi.interp, Integ.fresh .rk4⟩ :
    Solver ℚ).run exApiEnv false none).result.toOption = some (some [(65 / 24) ^ 2]) := by
    decide +kernel
  obtain ⟨id, hid⟩ : ∃ id, (Source.analytical (startBatch exApi 0)).id exApiEnv = .ok id ∧
      '/' ∉ id.toList := ⟨_, rfl, by decide +kernel⟩
  exact ⟨_, (C99_late_fails blockedDisk_tree (by decide) (by decide +kernel) (ext := ".mat")
    (by decide) (fun _ _ => 3) (fun _ _ _ => none) exApiEnv false
    ⟨.analytical (startBatch exApi 0), exApi.interp, Integ.fresh .rk4⟩ hid.1 hid.2
    (ok_of_toOption h) fun _ _ => rfl).1⟩

end Verif
