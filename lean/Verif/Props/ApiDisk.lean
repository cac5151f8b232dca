import Verif.Model.ApiDisk
import Verif.Props.Command

/-!
# C107: from a call of the API to the disk
-/

set_option linter.unusedSectionVars false

namespace Verif

/-! ## The name of the folder -/

/-- What a clock can show. -/
def WallClock.Valid (t : WallClock) : Prop :=
  t.month ≤ 12 ∧ t.day ≤ 31 ∧ t.hour < 24 ∧ t.minute < 60 ∧ t.second ≤ 61

theorem twoDigits_inj {a b : ℕ} (ha : a < 100) (hb : b < 100) (h : twoDigits a = twoDigits b) :
    a = b := by
  have key : ∀ x < 10, ∀ y < 10, Nat.digitChar x = Nat.digitChar y → x = y := by decide
  simp only [twoDigits, List.cons.injEq, and_true] at h
  have h1 := key (a / 10 % 10) (by omega) (b / 10 % 10) (by omega) h.1
  have h2 := key (a % 10) (by omega) (b % 10) (by omega) h.2
  omega

theorem runName_inj {pre : List Char} {a1 a2 a3 a4 a5 b1 b2 b3 b4 b5 : ℕ} {y y' : List Char}
    (e : pre ++ y ++ '-' :: twoDigits a1 ++ '-' :: twoDigits a2 ++ '-' :: twoDigits a3 ++
      'h' :: '-' :: twoDigits a4 ++ 'm' :: '-' :: twoDigits a5 ++ ['s'] =
      pre ++ y' ++ '-' :: twoDigits b1 ++ '-' :: twoDigits b2 ++ '-' :: twoDigits b3 ++
      'h' :: '-' :: twoDigits b4 ++ 'm' :: '-' :: twoDigits b5 ++ ['s']) :
    y = y' ∧ twoDigits a1 = twoDigits b1 ∧ twoDigits a2 = twoDigits b2 ∧
      twoDigits a3 = twoDigits b3 ∧ twoDigits a4 = twoDigits b4 ∧ twoDigits a5 = twoDigits b5 := by
  have hlen : ∀ a b : ℕ, (twoDigits a).length = (twoDigits b).length := fun _ _ => rfl
  obtain ⟨e, -⟩ := List.append_inj' e rfl
  obtain ⟨e, e5⟩ := List.append_inj' e rfl
  obtain ⟨e, e4⟩ := List.append_inj' e rfl
  obtain ⟨e, e3⟩ := List.append_inj' e rfl
  obtain ⟨e, e2⟩ := List.append_inj' e rfl
  obtain ⟨e, e1⟩ := List.append_inj' e rfl
  simp only [List.cons.injEq, true_and] at e1 e2 e3 e4 e5
  exact ⟨List.append_cancel_left e, e1, e2, e3, e4, e5⟩

/-- **C107** (default folder).  Folders named by the clock are different if the clock showed different
times (to the second). -/
theorem C107_default_folder {t t' : WallClock} (h : t.Valid) (h' : t'.Valid) :
    apiFolder none t = apiFolder none t' ↔ t = t' := by
  refine ⟨fun e => ?_, fun e => e ▸ rfl⟩
  obtain ⟨h1, h2, h3, h4, h5⟩ := h
  obtain ⟨g1, g2, g3, g4, g5⟩ := h'
  obtain ⟨ey, e1, e2, e3, e4, e5⟩ := runName_inj e
  have a1 := toDigits_inj ey
  have a2 := twoDigits_inj (by omega) (by omega) e1
  have a3 := twoDigits_inj (by omega) (by omega) e2
  have a4 := twoDigits_inj (by omega) (by omega) e3
  have a5 := twoDigits_inj (by omega) (by omega) e4
  have a6 := twoDigits_inj (by omega) (by omega) e5
  clear e ey e1 e2 e3 e4 e5
  cases t
  cases t'
  simp only [WallClock.mk.injEq]
  exact ⟨a1, a2, a3, a4, a5, a6⟩

/-! ## Files saved one after the other -/

section
variable {α : Type}

theorem lastSaved_map {order : List ℕ} {nm : ℕ → List Char} {ct : ℕ → α} {i : ℕ} (hi : i ∈ order)
    (hinj : ∀ j ∈ order, nm j = nm i → j = i) :
    lastSaved (order.map fun i => (nm i, ct i)) (nm i) = some (ct i) := by
  unfold lastSaved
  rw [← List.map_reverse, List.find?_map]
  have hex : (order.reverse.find? ((fun f : List Char × α => decide (f.1 = nm i)) ∘
      fun i => (nm i, ct i))) = some i := by
    cases hfd : (order.reverse.find? ((fun f : List Char × α => decide (f.1 = nm i)) ∘
        fun i => (nm i, ct i))) with
    | none =>
      rw [List.find?_eq_none] at hfd
      exact absurd (hfd i (List.mem_reverse.2 hi)) (by simp)
    | some j =>
      have hj := List.mem_of_find?_eq_some hfd
      have hj2 := List.find?_some hfd
      simp only [Function.comp_apply, decide_eq_true_eq] at hj2
      rw [hinj j (List.mem_reverse.1 hj) hj2]
  rw [hex]
  rfl

theorem lastSaved_mem {files : List (List Char × α)} {n : List Char} {c : α}
    (h : lastSaved files n = some c) : (n, c) ∈ files := by
  unfold lastSaved at h
  obtain ⟨f, hf, rfl⟩ := Option.map_eq_some_iff.1 h
  have h1 := List.mem_of_find?_eq_some hf
  have h2 := List.find?_some hf
  simp only [decide_eq_true_eq] at h2
  rw [← h2]
  exact List.mem_reverse.1 h1

end

section
variable {α : Type}

theorem Disk.save_frame {d d' : Disk α} {p : PathStr} {c : α} (h : d.save p c = .ok d') :
    d'.cwd = d.cwd ∧ d'.locked = d.locked := by
  unfold Disk.save at h
  repeat' split at h
  all_goals first | (cases h; done) | (cases h; exact ⟨rfl, rfl⟩)

theorem Disk.writeFiles_frame {p : PathStr} (files : List (List Char × α)) (d : Disk α) :
    (d.writeFiles p files).1.cwd = d.cwd ∧ (d.writeFiles p files).1.locked = d.locked := by
  induction files generalizing d with
  | nil => exact ⟨rfl, rfl⟩
  | cons f files ih =>
    rw [Disk.writeFiles]
    cases h : d.writeFile p f.1 f.2 with
    | error e => exact ⟨rfl, rfl⟩
    | ok d' =>
      obtain ⟨a, b⟩ := Disk.save_frame h
      obtain ⟨a', b'⟩ := ih d'
      exact ⟨a'.trans a, b'.trans b⟩

/-- After a run, the disk takes the same files again. -/
theorem Disk.Takes.after {d : Disk α} {p : PathStr} {names : List (List Char)} (h : d.Takes p names)
    (h0 : p ≠ []) {files : List (List Char × α)} (hf : ∀ f ∈ files, f.1 ∈ names ∧ FileName f.1) :
    ((d.openFolder p).1.writeFiles p files).1.Takes p names ∧
    ((d.openFolder p).1.writeFiles p files).1.target p = d.target p := by
  have hm := (Disk.makes h.tree h0).grows
  rw [← Disk.openFolder_fst] at hm
  obtain ⟨f1, f2⟩ := Disk.writeFiles_frame (p := p) files (d.openFolder p).1
  have hcwd := f1.trans hm.cwd
  have hlock := f2.trans hm.locked
  have hway : ((d.openFolder p).1.writeFiles p files).1.way p = d.way p := by
    unfold Disk.way
    rw [hcwd]
  have htar : ((d.openFolder p).1.writeFiles p files).1.target p = d.target p := by
    unfold Disk.target
    rw [hcwd]
  have htar1 : (d.openFolder p).1.target p = d.target p := by
    unfold Disk.target
    rw [hm.cwd]
  have hway1 : (d.openFolder p).1.way p = d.way p := by
    unfold Disk.way
    rw [hm.cwd]
  obtain ⟨r1, r2⟩ := C99_report_partial h.tree h0 h.straight
  have hdirs := r2 (r1.2 h.available)
  have hg : ∀ n ∈ names, (d.openFolder p).1.node (d.target p ++ [n]) ≠ some .dir := by
    intro n hn
    obtain ⟨a, -, b⟩ := h.free n hn
    rcases C99_folder_only h.tree p (d.target p ++ [n]) with e | ⟨-, -, -, e⟩
    · rw [e]
      exact a
    · exact absurd e b
  obtain ⟨-, k2, k3⟩ := C99_contents (d := (d.openFolder p).1) (p := p) (by rw [hway1]; exact hdirs)
    (by rw [htar1, hm.locked]; exact h.unlocked) files (fun f hf' => by
      rw [htar1, hm.locked]
      exact ⟨(hf f hf').2, hg _ (hf f hf').1, (h.free _ (hf f hf').1).2.1⟩)
  rw [htar1] at k2 k3
  have hnf : ∀ x, (d.openFolder p).1.node x = some .dir →
      ((d.openFolder p).1.writeFiles p files).1.node x = some .dir := by
    intro x hx
    rw [k3 x, hx]
    rintro f hf' rfl
    exact hg _ (hf f hf').1 hx
  have hdirs' : ∀ x ∈ d.way p, ((d.openFolder p).1.writeFiles p files).1.node x = some .dir :=
    fun x hx => hnf x (hdirs x hx)
  have htarget : d.target p ∈ d.way p := by
    unfold Disk.target Disk.way
    generalize (if p.head? = some '/' then ([] : Loc) else d.cwd) = loc
    induction namesIn p generalizing loc with
    | nil => simp [destination, stations]
    | cons a as ih =>
      rw [stations]
      exact List.mem_cons_of_mem _ (ih (move loc a))
  refine ⟨⟨⟨hnf _ hm.tree.root, ?_, fun loc name hs => ?_⟩, h.straight, ?_, ?_, fun n hn => ?_⟩, htar⟩
  · rw [hcwd]
    exact hnf _ (hm.cwd ▸ hm.tree.cwd)
  · by_cases hx : ∃ f ∈ files, loc ++ [name] = d.target p ++ [f.1]
    · obtain ⟨f, -, e⟩ := hx
      obtain ⟨rfl, -⟩ := List.append_inj' e rfl
      exact hdirs' _ htarget
    · push Not at hx
      rw [k3 _ hx] at hs
      exact hnf _ (hm.tree.parent loc name hs)
  · rw [hway]
    exact fun x hx => .inl (hdirs' x hx)
  · rw [htar, hlock]
    exact h.unlocked
  · rw [htar, hlock, hway]
    refine ⟨?_, (h.free n hn).2⟩
    rw [k2]
    cases lastSaved files n with
    | some c => simp
    | none =>
      simp only [Option.map_none, Option.none_or]
      exact hg n hn

end

/-! ## The run -/

section
variable {K F α : Type} [Zero K] [One K] [Add K] [Sub K] [Mul K] [Div K] [NatCast K] [IntCast K]
  [Min K] [Max K] [NumLits K] [DecidableEq K] [LT K] [DecidableLT K] [Inhabited F]

/-- The start time of field `i`: `np.arange(num_ftles)[i] * dt + np.arange(p)[0] * dt`. -/
def startTime (dt : K) (i : ℕ) : K := (i : K) * dt + ((0 : ℕ) : K) * dt

/-- The name of the file of field `i`. -/
def apiFileName (timeName : K → String) (dt : K) (format : String) (i : ℕ) : List Char :=
  ("ftle_" ++ timeName (startTime dt i) ++ (if format = "mat" then ".mat" else ".vtp")).toList

/-- The records of a file of the run: value and centroid of every group, in a VTK file with a third
coordinate. -/
def apiRecords (format : String) (seeds : NDArray K) (N d : ℕ) (field : List F) :
    List (F × List K) :=
  if format = "mat" then runRecords seeds N d field
  else (runRecords seeds N d field).map fun r => (r.1, r.2 ++ List.replicate (3 - d) 0)

theorem apiRecords_length (format : String) (seeds : NDArray K) (N d : ℕ) (field : List F) :
    (apiRecords format seeds N d field).length = field.length := by
  unfold apiRecords runRecords
  split_ifs <;> simp

theorem Saved.Says.length {s : Saved K F} {l : List (F × List K)} (h : s.Says l) :
    s.records.map List.length = some l.length := by
  obtain ⟨m, h1, h2⟩ := h
  rw [h1, Option.map_some, h2.length_eq]

theorem mem_writtenNames {events : List (Event K F)} {name : String} {field : List F}
    {c : NDArray K} (hm : .written name field c ∈ events) : name ∈ writtenNames events := by
  induction events with
  | nil => cases hm
  | cons e es ih =>
    rcases List.mem_cons.1 hm with e' | hm'
    · subst e'
      simp [writtenNames]
    · have := ih hm'
      cases e <;> simp_all [writtenNames]

theorem savedBy_single {events : List (Event K F)} {name : String} {field : List F}
    {c : NDArray K} (r : Option (List F)) (h : writtenNames events = [name])
    (hm : .written name field c ∈ events) : savedBy (some (r, events)) = [(name, (field, c))] := by
  induction events with
  | nil => cases hm
  | cons e es ih =>
    cases e with
    | written n f' c' =>
      have hes : writtenNames es = [] := by
        simp only [writtenNames, List.cons.injEq] at h
        exact h.2
      have h0 := savedBy_none_of_names hes r
      have : savedBy (some (r, Event.written n f' c' :: es)) = (n, (f', c')) ::
        savedBy (some (r, es)) := by simp [savedBy]
      rw [this, h0]
      rcases List.mem_cons.1 hm with e | hm
      · cases e
        rfl
      · exfalso
        have : name ∈ writtenNames es := mem_writtenNames hm
        rw [hes] at this
        cases this
    | _ =>
      have hes : writtenNames es = [name] := h
      have : Event.written name field c ∈ es := by
        rcases List.mem_cons.1 hm with e | hm
        · cases e
        · exact hm
      have := ih hes this
      simp only [savedBy] at this ⊢
      exact this

variable (lower : String → String)

/-- A successful construction with output. -/
theorem startApi_ok (hlow : lower "analytical" = "analytical") {fn : VelocityFn K}
    {P : Particles K} {dt : K} {snaps : Py ℤ} {nf : ℤ} {iname : String} {procs : ℤ} {format : String}
    {name : Option PathStr} {now : WallClock} {d : Disk α} {S : ApiSolver K F}
    {o : Option (Writer × PathStr)}
    (h : (startApi lower fn P dt snaps nf iname procs true format name now d).2.2 = .ok (S, o)) :
    (format = "mat" ∨ format = "vtk") ∧
    ApiSolver.create (F := F) lower fn P dt snaps nf iname procs true format = .ok S ∧
    o = some (Writer.fresh (if format = "mat" then .mat else .vtk) none, apiFolder name now) ∧
    (startApi (F := F) lower fn P dt snaps nf iname procs true format name now d).1 =
      (d.openFolder (apiFolder name now)).1 ∧
    (startApi (F := F) lower fn P dt snaps nf iname procs true format name now d).2.1 =
      (d.openFolder (apiFolder name now)).2 := by
  unfold startApi at h ⊢
  cases hc : ApiSolver.create (F := F) lower fn P dt snaps nf iname procs true format with
  | error e => rw [hc] at h; cases h
  | ok S' =>
    rw [hc] at h
    have hform : format = "mat" ∨ format = "vtk" := by
      obtain ⟨-, -, -, -, -, -, -, -, hw⟩ := C65_constructor lower hlow fn P dt snaps nf iname procs
        true format S' hc
      obtain ⟨k, hk, -⟩ := hw rfl
      unfold createWriter at hk
      split at hk
      · exact .inl ‹_›
      · split at hk
        · exact .inr ‹_›
        · cases hk
    have hcw : createWriter format = .ok (if format = "mat" then .mat else .vtk) := by
      rcases hform with rfl | rfl <;> rfl
    rw [hcw] at h ⊢
    simp only [if_true, Except.ok.injEq, Prod.mk.injEq] at h ⊢
    exact ⟨hform, h.1, h.2.symm, trivial, trivial⟩

/-- **C107** (the folder).  The files go to the folder named in the call and to no other; without a
name, to one named after the second of the call. -/
theorem C107_folder (hlow : lower "analytical" = "analytical") {fn : VelocityFn K}
    {P : Particles K} {dt : K} {snaps : Py ℤ} {nf : ℤ} {iname : String} {procs : ℤ} {format : String}
    {name : Option PathStr} {now : WallClock} {d : Disk α} {S : ApiSolver K F}
    {o : Option (Writer × PathStr)}
    (h : (startApi lower fn P dt snaps nf iname procs true format name now d).2.2 = .ok (S, o)) :
    ∃ w folder, o = some (w, folder) ∧ (∀ p, name = some p → folder = p) ∧
      (name = none → folder = now.runName) ∧
      (startApi (F := F) lower fn P dt snaps nf iname procs true format name now d).1 =
        (d.openFolder folder).1 := by
  obtain ⟨-, -, h1, h2, -⟩ := startApi_ok lower hlow h
  refine ⟨_, _, h1, ?_, ?_, h2⟩
  · rintro p rfl
    rfl
  · rintro rfl
    rfl

example : (⟨2024, 3, 5, 17, 4, 9⟩ : WallClock).runName = "run-2024-03-05-17h-04m-09s".toList := by
  decide +kernel

theorem api_saved (hlow : lower "analytical" = "analytical") {fn : VelocityFn K}
    {P : Particles K} {dt : K} {snaps : Py ℤ} {n : ℕ} {iname : String} {procs : ℤ} {format : String}
    {name : Option PathStr} {now : WallClock} {d : Disk α} {S : ApiSolver K F} {w : Writer}
    {folder : PathStr}
    (hstart : (startApi lower fn P dt snaps n iname procs true format name now d).2.2 =
      .ok (S, some (w, folder)))
    (env : Env K F) (he : env.PerMatrix) {seeds : NDArray K} {N dim : ℕ} (hd : dim = 2 ∨ dim = 3)
    (hs : seeds.shape = [2 * dim * N, dim]) (hp : mkParticles seeds = .ok P)
    (hne : apiFolder name now ≠ [])
    (hslash : ∀ i < n, '/' ∉ (env.timeName (startTime dt i)).toList)
    (hnames : ((List.range n).map fun i => env.timeName (startTime dt i)).Nodup)
    (htakes : d.Takes (apiFolder name now) ((List.range n).map (apiFileName env.timeName dt format)))
    (mem : ℕ → List ℕ → K)
    {s₀ s : HostState (Shared K) (Option (List F) × List (Event K F))}
    {as : List (Action (Option (List F) × List (Event K F)))}
    {rs : List (Option (Option (List F) × List (Event K F)))}
    (h₀ : (S.host env).init mem = .ok s₀) (h : HostState.Exec (S.host env) mem s₀ as s)
    (hr : s.pool.phase = .returned rs)
    (order : List ℕ) (ho : order.Perm (List.range n)) (file : Saved K F → α) :
    let r := startApi (F := F) lower fn P dt snaps n iname procs true format name now d
    let final := r.1.writeFiles folder (apiFiles w file rs order)
    let place := d.target (apiFolder name now)
    S.outcome s = some (.ok .none) ∧ r.2.1 = [] ∧ final.2 = none ∧
    (∃ kind, createIntegrator lower iname = .ok kind ∧ ∀ i < n, ∃ field saved,
      (aloneRun { env with junk := mem i } none (.analytical (startBatch S i))
        (.analytical (.fresh (some fn))) kind).result = .ok (some field) ∧
      saved.Says (apiRecords format seeds N dim field) ∧
      final.1.node (place ++ [apiFileName env.timeName dt format i]) = some (.file (file saved))) ∧
    (∀ x, (∀ i < n, x ≠ place ++ [apiFileName env.timeName dt format i]) →
      final.1.node x = d.node x ∨ d.node x = none ∧ x ∈ d.way (apiFolder name now) ∧
        final.1.node x = some .dir) ∧
    ∀ f ∈ apiFiles w file rs order, f.1 ∈ (List.range n).map (apiFileName env.timeName dt format) ∧
      FileName f.1 := by
  intro r final place
  obtain ⟨hform, hcreate, how, hr1, hr2⟩ := startApi_ok lower hlow hstart
  obtain ⟨rfl, rfl⟩ : w = Writer.fresh (if format = "mat" then .mat else .vtk) none ∧
      folder = apiFolder name now := by simpa using how
  obtain ⟨c1, c2, c3, c4, c5, c6, ⟨kind, hkind, c7⟩, -, c9⟩ := C65_constructor lower hlow fn P dt snaps
    n iname procs true format S hcreate
  obtain ⟨wk, hwk, hwr⟩ := c9 rfl
  have hwk' : wk = if format = "mat" then .mat else .vtk := by
    rcases hform with rfl | rfl <;> cases hwk <;> rfl
  have hp' : mkParticles seeds = .ok S.particles := by rw [c2]; exact hp
  obtain ⟨o1, o2, o3⟩ := C65_output env he S kind c7 _ hwr hd hs hp' n (by rw [c4]) mem h₀ h hr
  have hext : wk.extension none = if format = "mat" then ".mat" else ".vtp" := by
    rw [hwk']
    rcases hform with rfl | rfl <;> rfl
  -- what each task saves
  have hall : ∀ i, ∃ sv : Saved K F, i < n → ∃ field,
      (aloneRun { env with junk := mem i } none (.analytical (startBatch S i)) S.interp
        kind).result = .ok (some field) ∧ sv.Says (apiRecords format seeds N dim field) ∧
      sv.name.toList = apiFileName env.timeName dt format i ∧
      (savedBy ((rs[i]?).getD none)).flatMap ((Writer.fresh wk none).savedFile file) =
        [(sv.name.toList, file sv)] := by
    intro i
    by_cases hi : i < n
    swap
    · exact ⟨.vtp "" ⟨[], fun _ => 0⟩ .points ⟨[], fun _ => default⟩, fun h => absurd h hi⟩
    obtain ⟨field, tr, e1, e2, e3, e4, e5⟩ := o3 i hi
    obtain ⟨id, sv, g1, -, -, g4, g5⟩ := C73_unstructured { env with junk := mem i }
      ⟨he.two, he.three⟩ true
      (⟨.analytical (startBatch S i), S.interp, Integ.fresh kind⟩ : Solver K) wk hd hs hp' rfl field e5
    have hid : id = env.timeName (startTime dt i) := by
      obtain ⟨p', id', -, hid', -⟩ := run_with_writer
        (S := (⟨.analytical (startBatch S i), S.interp, Integ.fresh kind⟩ : Solver K))
        (env := { env with junk := mem i }) (queue := true) e5
      rw [g1] at hid'
      cases hid'
      have : ("ftle_" ++ id : String) = "ftle_" ++ env.timeName (startTime dt i) := by
        simp only [Source.id, startBatch] at g1
        cases hp0 : S.numSnapshots.toNat with
        | zero => rw [hp0] at g1; cases g1
        | succ m =>
          rw [hp0] at g1
          simp only [List.range_succ_eq_map, List.map_cons] at g1
          cases g1
          rw [c3]
          rfl
      have := congrArg String.toList this
      simp only [String.toList_append] at this
      exact String.toList_injective (List.append_cancel_left this)
    subst hid
    refine ⟨sv, fun _ => ⟨field, e5, ?_, ?_, ?_⟩⟩
    · unfold apiRecords
      subst hwk'
      rcases hform with rfl | rfl
      · exact g5
      · exact g5
    · rw [write_name _ _ _ _ _ g4, hext]
      rfl
    · rw [c3] at e3 e4
      rw [e1, Option.getD_some, savedBy_single none e3 e4]
      simp only [List.flatMap_cons, List.flatMap_nil, List.append_nil, Writer.savedFile]
      unfold startTime at g4
      rw [g4]
  choose sv hsv using hall
  have hmem : ∀ i ∈ order, i < n := fun i hi => List.mem_range.1 (ho.mem_iff.1 hi)
  have hfiles : apiFiles (Writer.fresh (if format = "mat" then .mat else .vtk) none) file rs order =
      order.map fun i => (apiFileName env.timeName dt format i, file (sv i)) := by
    unfold apiFiles
    refine flatMap_single fun i hi => ?_
    obtain ⟨field, -, -, g3, g4⟩ := hsv i (hmem i hi)
    rw [← hwk', ← g3]
    exact g4
  have hfn : ∀ i < n, FileName (apiFileName env.timeName dt format i) := by
    intro i hi
    have hx : '/' ∉ (if format = "mat" then ".mat" else ".vtp" : String).toList := by
      split_ifs <;> decide
    have e : apiFileName env.timeName dt format i = 'f' :: 't' :: 'l' :: 'e' :: '_' ::
        ((env.timeName (startTime dt i)).toList ++
          (if format = "mat" then ".mat" else ".vtp" : String).toList) := by
      simp [apiFileName, String.toList_append]
    rw [e]
    exact ⟨by simp, by simp only [List.mem_cons, List.mem_append, not_or]; exact
      ⟨by decide, by decide, by decide, by decide, by decide, hslash i hi, hx⟩, by simp, by simp⟩
  have hinj : ∀ i < n, ∀ j < n, apiFileName env.timeName dt format j =
      apiFileName env.timeName dt format i → j = i := by
    intro i hi j hj e
    have e' : env.timeName (startTime dt j) = env.timeName (startTime dt i) := by
      simp only [apiFileName, String.toList_append, List.append_assoc] at e
      exact String.toList_injective (List.append_cancel_right (List.append_cancel_left e))
    exact List.inj_on_of_nodup_map hnames (List.mem_range.2 hj) (List.mem_range.2 hi) e'
  obtain ⟨q1, q2, q3, q4⟩ := C99_saved_partial htakes.tree hne htakes.straight htakes.available
    htakes.unlocked (order.map fun i => (apiFileName env.timeName dt format i, file (sv i))) (by
      intro f hf
      obtain ⟨i, hi, rfl⟩ := List.mem_map.1 hf
      obtain ⟨t1, t2, t3⟩ := htakes.free _ (List.mem_map.2 ⟨i, List.mem_range.2 (hmem i hi), rfl⟩)
      exact ⟨hfn i (hmem i hi), t1, t2, t3⟩)
  have hfinal : final = (d.openFolder (apiFolder name now)).1.writeFiles (apiFolder name now)
      (order.map fun i => (apiFileName env.timeName dt format i, file (sv i))) := by
    show r.1.writeFiles _ _ = _
    rw [show r.1 = _ from hr1, hfiles]
  rw [show r.2.1 = _ from hr2, hfinal]
  refine ⟨o1, q1, q2, ⟨kind, hkind, fun i hi => ?_⟩, fun x hx => q4 x fun f hf => ?_,
    fun f hf => ?_⟩
  · obtain ⟨field, g1, g2, -, -⟩ := hsv i hi
    rw [c1] at g1
    refine ⟨field, sv i, g1, g2, (q3 _ _).2 (.inl ?_)⟩
    exact lastSaved_map (ct := fun i => file (sv i)) (ho.mem_iff.2 (List.mem_range.2 hi))
      fun j hj e => hinj i hi j (hmem j hj) e
  · obtain ⟨i, hi, rfl⟩ := List.mem_map.1 hf
    exact hx i (hmem i hi)
  · rw [hfiles] at hf
    obtain ⟨i, hi, rfl⟩ := List.mem_map.1 hf
    exact ⟨List.mem_map.2 ⟨i, List.mem_range.2 (hmem i hi), rfl⟩, hfn i (hmem i hi)⟩

/-- **C107** (result).  When the executor of an API run with output returns, whatever the interleaving
of the processes: `run` returns `None`, no error has been reported, field `i` is in the folder in a
file named after its start time, with the values that a fresh solver computes for that start time
alone at the centroids of the seeds, and the rest of the disk is as before except for the directories
on the way. -/
theorem C107_saved (hlow : lower "analytical" = "analytical") {fn : VelocityFn K}
    {P : Particles K} {dt : K} {snaps : Py ℤ} {n : ℕ} {iname : String} {procs : ℤ} {format : String}
    {name : Option PathStr} {now : WallClock} {d : Disk α} {S : ApiSolver K F} {w : Writer}
    {folder : PathStr}
    (hstart : (startApi lower fn P dt snaps n iname procs true format name now d).2.2 =
      .ok (S, some (w, folder)))
    (env : Env K F) (he : env.PerMatrix) {seeds : NDArray K} {N dim : ℕ} (hd : dim = 2 ∨ dim = 3)
    (hs : seeds.shape = [2 * dim * N, dim]) (hp : mkParticles seeds = .ok P)
    (hne : apiFolder name now ≠ [])
    (hslash : ∀ i < n, '/' ∉ (env.timeName (startTime dt i)).toList)
    (hnames : ((List.range n).map fun i => env.timeName (startTime dt i)).Nodup)
    (htakes : d.Takes (apiFolder name now) ((List.range n).map (apiFileName env.timeName dt format)))
    (mem : ℕ → List ℕ → K)
    {s₀ s : HostState (Shared K) (Option (List F) × List (Event K F))}
    {as : List (Action (Option (List F) × List (Event K F)))}
    {rs : List (Option (Option (List F) × List (Event K F)))}
    (h₀ : (S.host env).init mem = .ok s₀) (h : HostState.Exec (S.host env) mem s₀ as s)
    (hr : s.pool.phase = .returned rs)
    (order : List ℕ) (ho : order.Perm (List.range n)) (file : Saved K F → α) :
    let r := startApi (F := F) lower fn P dt snaps n iname procs true format name now d
    let final := r.1.writeFiles folder (apiFiles w file rs order)
    let place := d.target (apiFolder name now)
    S.outcome s = some (.ok .none) ∧ r.2.1 = [] ∧ final.2 = none ∧
    (∃ kind, createIntegrator lower iname = .ok kind ∧ ∀ i < n, ∃ field saved,
      (aloneRun { env with junk := mem i } none (.analytical (startBatch S i))
        (.analytical (.fresh (some fn))) kind).result = .ok (some field) ∧
      saved.Says (apiRecords format seeds N dim field) ∧
      final.1.node (place ++ [apiFileName env.timeName dt format i]) = some (.file (file saved))) ∧
    ∀ x, (∀ i < n, x ≠ place ++ [apiFileName env.timeName dt format i]) →
      final.1.node x = d.node x ∨ d.node x = none ∧ x ∈ d.way (apiFolder name now) ∧
        final.1.node x = some .dir := by
  obtain ⟨q1, q2, q3, q4, q5, -⟩ := api_saved lower hlow hstart env he hd hs hp hne hslash hnames htakes
    mem h₀ h hr order ho file
  exact ⟨q1, q2, q3, q4, q5⟩

/-- **C107** (completion).  If every field can be computed by a fresh solver, every execution in which
no worker dies can be continued until the executor returns. -/
theorem C107_completes (hlow : lower "analytical" = "analytical") {fn : VelocityFn K}
    {P : Particles K} {dt : K} {snaps : Py ℤ} {n : ℕ} {iname : String} {procs : ℤ} {format : String}
    {name : Option PathStr} {now : WallClock} {d : Disk α} {S : ApiSolver K F}
    {o : Option (Writer × PathStr)}
    (hstart : (startApi lower fn P dt snaps n iname procs true format name now d).2.2 = .ok (S, o))
    (env : Env K F) (he : env.PerMatrix) {seeds : NDArray K} {N dim : ℕ} (hd : dim = 2 ∨ dim = 3)
    (hs : seeds.shape = [2 * dim * N, dim]) (hp : mkParticles seeds = .ok P)
    (mem : ℕ → List ℕ → K)
    (hok : ∀ kind, createIntegrator lower iname = .ok kind → ∀ i < n, ∃ field,
      (aloneRun { env with junk := mem i } none (.analytical (startBatch S i))
        (.analytical (.fresh (some fn))) kind).result = .ok (some field))
    {s₀ s : HostState (Shared K) (Option (List F) × List (Event K F))}
    {as : List (Action (Option (List F) × List (Event K F)))}
    (h₀ : (S.host env).init mem = .ok s₀) (h : HostState.Exec (S.host env) mem s₀ as s)
    (hc : .crash ∉ as) :
    ∃ bs s' rs, HostState.Exec (S.host env) mem s₀ (as ++ bs) s' ∧
      s'.pool.phase = .returned rs := by
  obtain ⟨hform, hcreate, -, -, -⟩ := startApi_ok lower hlow hstart
  obtain ⟨c1, c2, c3, c4, c5, c6, ⟨kind, hkind, c7⟩, -, c9⟩ := C65_constructor lower hlow fn P dt snaps
    n iname procs true format S hcreate
  obtain ⟨wk, hwk, hwr⟩ := c9 rfl
  refine C65_returns env S kind c7 n (by rw [c4]) mem (fun i hi => ?_) h₀ h hc
  obtain ⟨field, hf⟩ := hok kind hkind i hi
  rw [← c1] at hf
  obtain ⟨id, sv, g1, g2, -⟩ := C73_unstructured { env with junk := mem i } ⟨he.two, he.three⟩ true
    (⟨.analytical (startBatch S i), S.interp, Integ.fresh kind⟩ : Solver K) wk hd hs
    (show mkParticles seeds = .ok S.particles by rw [c2]; exact hp) rfl field hf
  rw [hwr]
  exact ⟨none, g2⟩

/-- The arguments of a call `AnalyticalSolver(…, save_output=True)`; `snapshots` is the number of
snapshots per flow map period. -/
structure ApiCall (K : Type) where
  fn : VelocityFn K
  seeds : NDArray K
  timestep : K
  snapshots : ℤ
  fields : ℕ
  integrator : String
  processes : ℤ
  format : String
  name : Option PathStr

/-- The call and its `run()` return, at the time `now`: `d` is the disk before it, `d'` the disk after
it, whatever the interleaving of the processes. -/
def ApiCall.Leaves (c : ApiCall K) (env : Env K F) (file : Saved K F → α) (now : WallClock)
    (d d' : Disk α) : Prop :=
  ∃ P S w folder mem s₀ s as rs order,
    mkParticles c.seeds = .ok P ∧
    (startApi lower c.fn P c.timestep (.ok c.snapshots) c.fields c.integrator c.processes true
      c.format c.name now d).2.2 = .ok (S, some (w, folder)) ∧
    (S.host env).init mem = .ok s₀ ∧ HostState.Exec (S.host env) mem s₀ as s ∧
    s.pool.phase = .returned rs ∧ order.Perm (List.range c.fields) ∧
    d' = ((startApi (F := F) lower c.fn P c.timestep (.ok c.snapshots) c.fields c.integrator
      c.processes true c.format c.name now d).1.writeFiles folder (apiFiles w file rs order)).1

/-- The files of a call are in the folder `place`: file `i` says what a fresh solver computes for
start time `i` alone. -/
def ApiCall.FilesIn (c : ApiCall K) (env : Env K F) (file : Saved K F → α) (N dim : ℕ) (place : Loc)
    (d' : Disk α) : Prop :=
  ∃ (kind : Kind) (P : Particles K) (mem : ℕ → List ℕ → K), mkParticles c.seeds = .ok P ∧
    createIntegrator lower c.integrator = .ok kind ∧
    ∀ i < c.fields, ∃ field saved,
      (aloneRun { env with junk := mem i } none (.analytical ⟨P, c.timestep,
        (List.range c.snapshots.toNat).map fun j : ℕ =>
          (i : K) * c.timestep + (j : K) * c.timestep⟩)
        (.analytical (.fresh (some c.fn))) kind).result = .ok (some field) ∧
      field.length = N ∧ saved.Says (apiRecords c.format c.seeds N dim field) ∧
      d'.node (place ++ [apiFileName env.timeName c.timestep c.format i]) = some (.file (file saved))

/-- A call that makes sense on a disk: `N` groups of seeds, names of start times that are different
and without slashes, a folder that can be made and takes the files. -/
structure ApiCall.Sensible (c : ApiCall K) (env : Env K F) (N dim : ℕ) (now : WallClock)
    (d : Disk α) : Prop where
  two_or_three : dim = 2 ∨ dim = 3
  shape : c.seeds.shape = [2 * dim * N, dim]
  folder : apiFolder c.name now ≠ []
  slash : ∀ i < c.fields, '/' ∉ (env.timeName (startTime c.timestep i)).toList
  names : ((List.range c.fields).map fun i => env.timeName (startTime c.timestep i)).Nodup
  takes : d.Takes (apiFolder c.name now)
    ((List.range c.fields).map (apiFileName env.timeName c.timestep c.format))

theorem ApiCall.leaves_files (hlow : lower "analytical" = "analytical") {c : ApiCall K}
    {env : Env K F} (he : env.PerMatrix) {N dim : ℕ} {now : WallClock} {d d' : Disk α}
    {file : Saved K F → α} (hc : c.Sensible env N dim now d) (h : c.Leaves lower env file now d d') :
    c.FilesIn lower env file N dim (d.target (apiFolder c.name now)) d' ∧
    (∀ x, (∀ i < c.fields, x ≠ d.target (apiFolder c.name now) ++
        [apiFileName env.timeName c.timestep c.format i]) →
      d'.node x = d.node x ∨ d.node x = none ∧ x ∈ d.way (apiFolder c.name now) ∧
        d'.node x = some .dir) ∧
    d'.Takes (apiFolder c.name now)
      ((List.range c.fields).map (apiFileName env.timeName c.timestep c.format)) ∧
    d'.target (apiFolder c.name now) = d.target (apiFolder c.name now) := by
  obtain ⟨P, S, w, folder, mem, s₀, s, as, rs, order, hp, hstart, h₀, hx, hr, ho, hd'⟩ := h
  obtain ⟨-, -, -, ⟨kind, hkind, q4⟩, q5, q6⟩ := api_saved lower hlow hstart env he hc.two_or_three hc.shape hp
    hc.folder hc.slash hc.names hc.takes mem h₀ hx hr order ho file
  obtain ⟨hform, hcreate, how, hr1, -⟩ := startApi_ok lower hlow hstart
  obtain ⟨c1, c2, c3, c4, c5, -⟩ := C65_constructor lower hlow c.fn P c.timestep (.ok c.snapshots)
    c.fields c.integrator c.processes true c.format S hcreate
  have c5' : S.numSnapshots = c.snapshots := (Except.ok.inj c5).symm
  rw [← hd'] at q4 q5
  refine ⟨⟨kind, P, mem, hp, hkind, fun i hi => ?_⟩, q5, ?_⟩
  · obtain ⟨field, saved, g1, g2, g3⟩ := q4 i hi
    have hl : field.length = N := run_field_length (env := { env with junk := mem i })
      ⟨he.two, he.three⟩ hc.two_or_three hc.shape hp
      (S := ⟨.analytical (startBatch S i), .analytical (.fresh (some c.fn)), Integ.fresh kind⟩)
      (by simp only [Source.getParticles, startBatch, c2]) g1
    refine ⟨field, saved, ?_, hl, g2, g3⟩
    rw [← g1]
    unfold startBatch
    rw [c2, c3, c5']
  · have := Disk.Takes.after hc.takes hc.folder q6
    have hf : folder = apiFolder c.name now := by
      have := Option.some.inj how
      simp only [Prod.mk.injEq] at this
      exact this.2
    rw [hd', hr1, hf]
    exact this

/-- **C107 is false of the code (default folder).**  Two calls without `output_dir_name` in the same
second with the same time step, number of fields and format: the files of the first call are there
when it returns, and every one of them has been replaced by one of the second call when that
returns; if the second call has another number of particle groups, nothing is left of the results of
the first. -/
theorem C107_same_second_fails (hlow : lower "analytical" = "analytical") {a b : ApiCall K}
    {env : Env K F} (he : env.PerMatrix) {N N' dim dim' : ℕ} {now : WallClock} {d d₁ d₂ : Disk α}
    {file : Saved K F → α} (ha : a.Sensible env N dim now d) (hna : a.name = none)
    (hnb : b.name = none) (hdt : b.timestep = a.timestep) (hn : b.fields = a.fields)
    (hfo : b.format = a.format) (hdim : dim' = 2 ∨ dim' = 3)
    (hsh : b.seeds.shape = [2 * dim' * N', dim'])
    (h₁ : a.Leaves lower env file now d d₁) (h₂ : b.Leaves lower env file now d₁ d₂) :
    a.FilesIn lower env file N dim (d.target now.runName) d₁ ∧
    b.FilesIn lower env file N' dim' (d.target now.runName) d₂ ∧
    (N ≠ N' → file.Injective → ∀ i < a.fields,
      d₂.node (d.target now.runName ++ [apiFileName env.timeName a.timestep a.format i]) ≠
        d₁.node (d.target now.runName ++ [apiFileName env.timeName a.timestep a.format i])) := by
  obtain ⟨p1, -, p2, p3⟩ := ApiCall.leaves_files lower hlow he ha h₁
  have hfa : apiFolder a.name now = now.runName := by rw [hna]; rfl
  have hfb : apiFolder b.name now = now.runName := by rw [hnb]; rfl
  have hb : b.Sensible env N' dim' now d₁ := by
    refine ⟨hdim, hsh, ?_, ?_, ?_, ?_⟩
    · rw [hfb, ← hfa]
      exact ha.folder
    · rw [hn, hdt]
      exact ha.slash
    · rw [hn, hdt]
      exact ha.names
    · rw [hn, hdt, hfo, hfb, ← hfa]
      exact p2
  obtain ⟨r1, -⟩ := ApiCall.leaves_files lower hlow he hb h₂
  rw [hfb, ← hfa, p3] at r1
  rw [hfa] at p1 r1
  refine ⟨p1, r1, fun hN hinj i hi => ?_⟩
  obtain ⟨_, _, _, -, -, p1⟩ := p1
  obtain ⟨_, _, _, -, -, r1⟩ := r1
  obtain ⟨f, sv, -, hl, hsv, e⟩ := p1 i hi
  obtain ⟨f', sv', -, hl', hsv', e'⟩ := r1 i (hn ▸ hi)
  rw [hdt, hfo] at e'
  rw [e, e']
  intro h
  have hs : sv' = sv := hinj (by simpa using h)
  subst hs
  have h1 := hsv.length
  have h2 := hsv'.length
  rw [apiRecords_length] at h1 h2
  rw [hl] at h1
  rw [hl'] at h2
  rw [h1] at h2
  exact hN (Option.some.inj h2)

/-- **C107** (a new folder).  If nothing is at the place of the folder before the call, its files
afterwards are exactly those of the call. -/
theorem C107_new_folder (hlow : lower "analytical" = "analytical") {c : ApiCall K}
    {env : Env K F} (he : env.PerMatrix) {N dim : ℕ} {now : WallClock} {d d' : Disk α}
    {file : Saved K F → α} (hc : c.Sensible env N dim now d)
    (hnew : d.node (d.target (apiFolder c.name now)) = none)
    (h : c.Leaves lower env file now d d') (x : List Char) :
    (∃ content, d'.node (d.target (apiFolder c.name now) ++ [x]) = some (.file content)) ↔
      ∃ i < c.fields, x = apiFileName env.timeName c.timestep c.format i := by
  obtain ⟨⟨_, _, _, -, -, p1⟩, p2, -, -⟩ := ApiCall.leaves_files lower hlow he hc h
  constructor
  · rintro ⟨content, hx⟩
    by_contra hno
    have hn : d.node (d.target (apiFolder c.name now) ++ [x]) = none := by
      by_contra hne
      have := hc.takes.tree.parent _ _ (Option.isSome_iff_ne_none.2 hne)
      rw [hnew] at this
      cases this
    rcases p2 (d.target (apiFolder c.name now) ++ [x]) (fun i hi e => hno ⟨i, hi, by
      simpa using (List.append_inj' e rfl).2⟩) with e | ⟨-, -, e⟩
    · rw [e, hn] at hx
      cases hx
    · rw [e] at hx
      cases hx
  · rintro ⟨i, hi, rfl⟩
    obtain ⟨-, saved, -, -, -, g⟩ := p1 i hi
    exact ⟨_, g⟩

/-! ### Examples -/

/-- Both theorems on the default folder: a second later the folder is another one. -/
example : apiFolder none ⟨2025, 11, 7, 18, 42, 0⟩ = "run-2025-11-07-18h-42m-00s".toList ∧
    apiFolder none ⟨2025, 11, 7, 18, 42, 0⟩ ≠ apiFolder none ⟨2025, 11, 7, 18, 42, 1⟩ := by
  refine ⟨by decide +kernel, fun h => ?_⟩
  have := (C107_default_folder (by simp [WallClock.Valid]) (by simp [WallClock.Valid])).1 h
  revert this
  decide

/-- Two groups of seeds. -/
def demoSeeds : NDArray ℚ := ⟨[8, 2], fun idx =>
  match idx with
  | [0, 0] => -1 | [1, 0] => 4 | [2, 0] => 1 | [3, 0] => 6 | [5, 0] => 5 | [7, 0] => 5
  | [4, 1] => 1 | [5, 1] => 1 | [6, 1] => -1 | [7, 1] => -1 | _ => 0⟩

/-- Two fields of a call without `output_dir_name`. -/
def demoCall (seeds : NDArray ℚ) : ApiCall ℚ where
  fn := exApiFn
  seeds := seeds
  timestep := 1
  snapshots := 2
  fields := 2
  integrator := "rk4"
  processes := 2
  format := "mat"
  name := none

def demoNow : WallClock := ⟨2025, 11, 7, 18, 42, 0⟩

theorem demoWay : callDisk.way (apiFolder none demoNow) =
    [[tmpName], [tmpName, "run-2025-11-07-18h-42m-00s".toList]] := by
  decide +kernel

theorem demoTarget : callDisk.target (apiFolder none demoNow) =
    [tmpName, "run-2025-11-07-18h-42m-00s".toList] := by
  decide +kernel

theorem demoNames : (List.range 2).map (apiFileName exApiEnv.timeName 1 "mat") =
    ["ftle_0.mat".toList, "ftle_1.mat".toList] := by
  decide +kernel

theorem demoTakes : callDisk.Takes (apiFolder none demoNow)
    ((List.range 2).map (apiFileName exApiEnv.timeName 1 "mat")) := by
  refine ⟨diskOf_tree rfl rfl ?_, .inl (by decide +kernel), ?_, ?_, ?_⟩
  · intro e he
    simp only [List.mem_cons, List.not_mem_nil, or_false] at he
    rcases he with rfl | rfl
    · exact .inl rfl
    · exact .inr rfl
  · rw [demoWay]
    intro x hx
    simp only [List.mem_cons, List.not_mem_nil, or_false] at hx
    rcases hx with rfl | rfl
    · exact .inl rfl
    · exact .inr ⟨rfl, rfl⟩
  · rw [demoTarget]
    rfl
  · rw [demoWay, demoTarget, demoNames]
    intro n hn
    simp only [List.mem_cons, List.not_mem_nil, or_false] at hn
    rcases hn with rfl | rfl
    · refine ⟨?_, rfl, by decide⟩
      rw [show callDisk.node _ = none from rfl]
      simp
    · refine ⟨?_, rfl, by decide⟩
      rw [show callDisk.node _ = none from rfl]
      simp

theorem demoSensible {seeds : NDArray ℚ} {N : ℕ} (h : seeds.shape = [2 * 2 * N, 2]) :
    (demoCall seeds).Sensible exApiEnv N 2 demoNow callDisk where
  two_or_three := .inl rfl
  shape := h
  folder := by
    show apiFolder none demoNow ≠ []
    decide +kernel
  slash := by
    show ∀ i < 2, '/' ∉ (exApiEnv.timeName (startTime 1 i)).toList
    decide +kernel
  names := by
    show ((List.range 2).map fun i => exApiEnv.timeName (startTime 1 i)).Nodup
    decide +kernel
  takes := demoTakes

/-- The solver that the constructor builds. -/
def demoSolver (P : Particles ℚ) : ApiSolver ℚ ℚ where
  particles := P
  timestep := 1
  numFtles := 2
  numSnapshots := 2
  interp := .analytical (.fresh (some exApiFn))
  integ := Integ.fresh .rk4
  writer := some (Writer.fresh .mat none).asWriteFn
  processes := 2

theorem demoStart (P : Particles ℚ) (now : WallClock) (d : Disk (Saved ℚ ℚ)) :
    (startApi (F := ℚ) id exApiFn P 1 (.ok 2) 2 "rk4" 2 true "mat" none now d).2.2 =
      .ok (demoSolver P, some (Writer.fresh .mat none, apiFolder none now)) := by
  simp [startApi, ApiSolver.create, createInterpolator, createIntegrator, createWriter, demoSolver]

/-- The call runs to its end on any disk. -/
theorem demoLeaves {seeds : NDArray ℚ} {N : ℕ} {P : Particles ℚ}
    (h : seeds.shape = [2 * 2 * N, 2]) (hp : mkParticles seeds = .ok P)
    (hok : ∀ i < 2, ∃ field, (aloneRun { exApiEnv with junk := fun _ => 5 } none
      (.analytical (startBatch (demoSolver P) i)) (.analytical (.fresh (some exApiFn)))
      .rk4).result = .ok (some field)) (d : Disk (Saved ℚ ℚ)) :
    ∃ d', (demoCall seeds).Leaves id exApiEnv id demoNow d d' := by
  obtain ⟨s₀, h₀⟩ := (C65_start exApiEnv (demoSolver P) (fun _ _ => 5)).1
    (by simp [demoSolver]) (by simp [demoSolver])
  obtain ⟨bs, s, rs, h1, h2⟩ := C107_completes id rfl (demoStart P demoNow d) exApiEnv
    exApiEnv_perMatrix (.inl rfl) h hp (fun _ _ => 5) (by
      intro kind hk
      cases hk
      exact hok) h₀ .nil (by simp)
  exact ⟨_, P, _, _, _, _, _, _, _, rs, [1, 0], hp, demoStart P demoNow d, h₀, h1, h2,
    show [1, 0].Perm (List.range 2) by decide, rfl⟩

theorem demoField {P : Particles ℚ} {v w : List ℚ}
    (h0 : (aloneRun { exApiEnv with junk := fun _ => 5 } none
      (.analytical (startBatch (demoSolver P) 0)) (.analytical (.fresh (some exApiFn)))
      .rk4).result.toOption = some (some v))
    (h1 : (aloneRun { exApiEnv with junk := fun _ => 5 } none
      (.analytical (startBatch (demoSolver P) 1)) (.analytical (.fresh (some exApiFn)))
      .rk4).result.toOption = some (some w)) :
    ∀ i < 2, ∃ field, (aloneRun { exApiEnv with junk := fun _ => 5 } none
      (.analytical (startBatch (demoSolver P) i)) (.analytical (.fresh (some exApiFn)))
      .rk4).result = .ok (some field) := by
  intro i hi
  interval_cases i
  · exact ⟨_, ok_of_toOption h0⟩
  · exact ⟨_, ok_of_toOption h1⟩

/-- The particle set of `demoSeeds`. -/
def demoParticles : Particles ℚ :=
  match mkParticles demoSeeds with
  | .ok p => p
  | .error _ => exParticles

/-- One call with one group of seeds, then one with two groups in the same second: the files of the
first call are there after it (and nothing else is in its folder), and none of them is left after the
second. -/
example : ∃ d₁ d₂ : Disk (Saved ℚ ℚ),
    (demoCall exSeeds).Leaves id exApiEnv id demoNow callDisk d₁ ∧
    (demoCall demoSeeds).Leaves id exApiEnv id demoNow d₁ d₂ ∧
    (∀ x, (∃ content, d₁.node [tmpName, "run-2025-11-07-18h-42m-00s".toList, x] =
      some (.file content)) ↔ x = "ftle_0.mat".toList ∨ x = "ftle_1.mat".toList) ∧
    d₂.node [tmpName, "run-2025-11-07-18h-42m-00s".toList, "ftle_1.mat".toList] ≠
      d₁.node [tmpName, "run-2025-11-07-18h-42m-00s".toList, "ftle_1.mat".toList] := by
  obtain ⟨d₁, h₁⟩ := demoLeaves (N := 1) (P := exApiParticles) (seeds := exSeeds) rfl rfl
    (demoField (v := [(65 / 24) ^ 2]) (w := [(65 / 24) ^ 2]) (by decide +kernel) (by decide +kernel))
    callDisk
  obtain ⟨d₂, h₂⟩ := demoLeaves (N := 2) (P := demoParticles) (seeds := demoSeeds) rfl rfl
    (demoField (v := [(65 / 24) ^ 2, (65 / 24) ^ 2]) (w := [(65 / 24) ^ 2, (65 / 24) ^ 2])
      (by decide +kernel) (by decide +kernel)) d₁
  obtain ⟨-, -, h3⟩ := C107_same_second_fails id rfl (b := demoCall demoSeeds)
    exApiEnv_perMatrix
    (demoSensible (N := 1) (seeds := exSeeds) rfl) rfl rfl rfl rfl rfl (.inl rfl) (N' := 2) rfl h₁ h₂
  have h4 := C107_new_folder id rfl exApiEnv_perMatrix
    (demoSensible (N := 1) (seeds := exSeeds) rfl) (by decide +kernel) h₁
  have ht : callDisk.target demoNow.runName = [tmpName, "run-2025-11-07-18h-42m-00s".toList] :=
    demoTarget
  have hn0 : apiFileName exApiEnv.timeName 1 "mat" 0 = "ftle_0.mat".toList := by decide +kernel
  have hn1 : apiFileName exApiEnv.timeName 1 "mat" 1 = "ftle_1.mat".toList := by decide +kernel
  refine ⟨d₁, d₂, h₁, h₂, fun x => ?_, ?_⟩
  · have := h4 x
    rw [show apiFolder (demoCall exSeeds).name demoNow = demoNow.runName from rfl, ht] at this
    refine this.trans ⟨?_, ?_⟩
    · rintro ⟨i, hi, rfl⟩
      have hi' : i < 2 := hi
      interval_cases i
      · exact .inl hn0
      · exact .inr hn1
    · rintro (rfl | rfl)
      · exact ⟨0, by decide, hn0.symm⟩
      · exact ⟨1, by decide, hn1.symm⟩
  · have := h3 (by decide) Function.injective_id 1 (by decide)
    rw [ht] at this
    rw [← hn1]
    exact this

end

end Verif
