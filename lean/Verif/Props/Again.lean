import Verif.Spec.Again
import Verif.Props.Command
import Verif.Props.Memory

/-!
# C134: calling the program again

A call of `pyftle` that has been interrupted, killed or has failed leaves some of its files, the last
ones perhaps cut short.  Nothing in the package looks at the files that are there, so the user calls
it again with the same arguments.
-/

set_option linter.unusedSectionVars false

namespace Verif

/-! ## The disk -/

section
variable {α : Type}

theorem Disk.LeftBehind.way {d d' : Disk α} {p : PathStr} {names : List (List Char)}
    (h : d.LeftBehind p names d') : d'.way p = d.way p := by
  unfold Disk.way
  rw [h.cwd]

theorem Disk.LeftBehind.target {d d' : Disk α} {p : PathStr} {names : List (List Char)}
    (h : d.LeftBehind p names d') : d'.target p = d.target p := by
  unfold Disk.target
  rw [h.cwd]

/-- What has been left does not stand in the way. -/
theorem Disk.LeftBehind.takes {d d' : Disk α} {p : PathStr} {names : List (List Char)}
    (h : d.LeftBehind p names d') (ht : d.Takes p names) : d'.Takes p names := by
  refine ⟨h.tree, ht.straight, fun x hx => ?_, by rw [h.locked, h.target]; exact ht.unlocked,
    fun n hn => ?_⟩
  · rw [h.way] at hx
    unfold Disk.Available
    rw [h.locked]
    rcases h.node x with e | ⟨-, -, e⟩ | ⟨n, hn, e, -⟩
    · rw [e]; exact ht.available x hx
    · exact .inl e
    · exact absurd (e ▸ hx) (ht.free n hn).2.2
  · rw [h.locked, h.target, h.way]
    obtain ⟨h1, h2, h3⟩ := ht.free n hn
    refine ⟨?_, h2, h3⟩
    rcases h.node (d.target p ++ [n]) with e | ⟨-, e, -⟩ | ⟨-, -, -, c, e⟩
    · rw [e]; exact h1
    · exact absurd e h3
    · rw [e]; simp

/-- Saving a file leaves the directories alone. -/
theorem Disk.save_dir {d d' : Disk α} {p : PathStr} {c : α} (h : d.save p c = .ok d') {x : Loc}
    (hx : d.node x = some .dir) : d'.node x = some .dir := by
  unfold Disk.save at h
  split at h
  · cases h
  split at h
  · cases h
  split at h
  · cases h
  split at h
  · cases h
  split at h
  · cases h
  · next hn =>
    split at h
    · cases h
    · cases h
      simp only [Disk.set]
      rw [if_neg (fun e => by rw [e, hn] at hx; cases hx), hx]
  · next hn =>
    split at h
    · cases h
    · cases h
      simp only [Disk.set]
      rw [if_neg (fun e => by rw [e, hn] at hx; cases hx), hx]

theorem Disk.writeFiles_dir {p : PathStr} {x : Loc} (files : List (List Char × α)) :
    ∀ d : Disk α, d.node x = some .dir → (d.writeFiles p files).1.node x = some .dir := by
  induction files with
  | nil => exact fun d h => h
  | cons f files ih =>
    intro d h
    unfold Disk.writeFiles
    cases hw : d.writeFile p f.1 f.2 with
    | error e => exact h
    | ok d' => exact ih d' (Disk.save_dir hw h)

theorem Disk.LeftBehind.refl {d : Disk α} (h : d.Tree) (p : PathStr) (names : List (List Char)) :
    d.LeftBehind p names d := ⟨rfl, rfl, h, fun _ => .inl rfl⟩

theorem Disk.LeftBehind.trans {d d₁ d₂ : Disk α} {p : PathStr} {names : List (List Char)}
    (h₁ : d.LeftBehind p names d₁) (h₂ : d₁.LeftBehind p names d₂) : d.LeftBehind p names d₂ := by
  refine ⟨h₂.cwd.trans h₁.cwd, h₂.locked.trans h₁.locked, h₂.tree, fun x => ?_⟩
  rcases h₂.node x with e | ⟨e1, e2, e3⟩ | ⟨n, hn, e, c, e'⟩
  · rcases h₁.node x with g | ⟨g1, g2, g3⟩ | ⟨n, hn, g, c, g'⟩
    · exact .inl (e.trans g)
    · exact .inr (.inl ⟨g1, g2, e.trans g3⟩)
    · exact .inr (.inr ⟨n, hn, g, c, e.trans g'⟩)
  · rw [h₁.way] at e2
    rcases h₁.node x with g | ⟨g1, g2, g3⟩ | ⟨n, hn, g, c, g'⟩
    · exact .inr (.inl ⟨g ▸ e1, e2, e3⟩)
    · exact .inr (.inl ⟨g1, g2, e3⟩)
    · rw [g'] at e1; cases e1
  · rw [h₁.target] at e
    exact .inr (.inr ⟨n, hn, e, c, e'⟩)

/-- Making the folder. -/
theorem Disk.LeftBehind.folder {d : Disk α} {p : PathStr} {names : List (List Char)}
    (ht : d.Tree) (h0 : p ≠ []) : d.LeftBehind p names (d.openFolder p).1 := by
  have g := (Disk.makes ht h0).grows
  rw [Disk.openFolder_fst]
  refine ⟨g.cwd, g.locked, g.tree, fun x => ?_⟩
  rcases g.node x with e | ⟨e1, -, e3, e4⟩
  · exact .inl e
  · exact .inr (.inl ⟨e1, by rw [Disk.way_eq]; exact e4, e3⟩)

/-- Writing one file, whatever is written. -/
theorem Disk.LeftBehind.file {d d' : Disk α} {p : PathStr} {names : List (List Char)} (ht : d.Tree)
    {n : List Char} (hn : n ∈ names) (hf : FileName n) {c : α} (h : d.writeFile p n c = .ok d') :
    d.LeftBehind p names d' := by
  by_cases hc : d.Clear (d.start p) (pathNames p)
  · rw [Disk.writeFile_clear hf hc, ← Disk.target_eq] at h
    have hd : d.node (d.target p) = some .dir := by
      refine hc _ ?_
      rw [Disk.target_eq]
      exact destination_mem _ _
    have key : d' = d.set (d.target p ++ [n]) (.file c) ∧ d.node (d.target p ++ [n]) ≠ some .dir := by
      split at h
      · cases h
      · next hn =>
        split at h
        · cases h
        · cases h
          exact ⟨rfl, by rw [hn]; simp⟩
      · next hn =>
        split at h
        · cases h
        · cases h
          exact ⟨rfl, by rw [hn]; simp⟩
    obtain ⟨rfl, hk⟩ := key
    refine ⟨rfl, rfl, ht.set hd hk, fun x => ?_⟩
    by_cases hx : x = d.target p ++ [n]
    · exact .inr (.inr ⟨n, hn, hx, c, by simp [Disk.set, hx]⟩)
    · exact .inl (by simp [Disk.set, hx])
  · obtain ⟨e, he⟩ := Disk.writeFile_blocked hf hc c
    rw [he] at h
    cases h

/-- The folder and any files, the last of them perhaps not: a call that ended early. -/
theorem Disk.LeftBehind.files {p : PathStr} {names : List (List Char)}
    (files : List (List Char × α)) (hf : ∀ f ∈ files, f.1 ∈ names ∧ FileName f.1) :
    ∀ d : Disk α, d.Tree → d.LeftBehind p names (d.writeFiles p files).1 := by
  induction files with
  | nil => exact fun d h => .refl h p names
  | cons f files ih =>
    intro d h
    unfold Disk.writeFiles
    obtain ⟨h1, h2⟩ := hf f (by simp)
    cases hw : d.writeFile p f.1 f.2 with
    | error e => exact .refl h p names
    | ok d' =>
      have g := Disk.LeftBehind.file h h1 h2 hw
      exact g.trans (ih (fun x hx => hf x (by simp [hx])) d' g.tree)

end

/-! ## C134 -/

section
variable {K F α : Type} [Zero K] [One K] [Add K] [Sub K] [Mul K] [Div K] [NatCast K] [IntCast K]
  [Min K] [Max K] [NumLits K] [DecidableEq K] [LT K] [DecidableLT K] [Inhabited F]
  (cd : CharData) (float : Str → Option K) (json : Str → List Str) (texts : Str → Option Str)
  (per : K → K → Py ℤ) (lower : String → String)

theorem fileNames_file {q : Experiment K} {stem : String → String}
    (hstem : ∀ v ∈ (inRunOrder q.timestep q.velocity).take q.fields, '/' ∉ (stem v).toList)
    {n : List Char} (hn : n ∈ q.fileNames stem) : FileName n := by
  obtain ⟨v, hv, rfl⟩ := List.mem_map.1 hn
  have he : ("ftle_" ++ stem v ++ q.extension).toList = 'f' :: 't' :: 'l' :: 'e' :: '_' ::
      ((stem v).toList ++ q.extension.toList) := by
    simp [String.toList_append]
  have hext : '/' ∉ q.extension.toList := by
    unfold Experiment.extension
    split_ifs <;> decide
  rw [he]
  exact ⟨by simp, by simp [hext, hstem v hv], by simp, by simp⟩

/-- **C134 (what a call that ended early leaves).**  A call that asks for an experiment makes its folder
and then writes any files under any of the names of the experiment, in any order, with any contents
(so also files that have been cut short): the disk differs from the one before by directories on the
way and by files of the experiment. -/
theorem C134_left (hl : cd.Lawful)
    (hlow : ∀ s ∈ ["rk4", "euler", "ab2", "cubic", "linear", "nearest", "grid"], lower s = s)
    {argv : List Str} {l m : List (Opt × Str)} (hs : Says cd argv l)
    (hm : FromFile (fun p => (texts p).bind (configItems cd json)) argv l m) {q : Experiment K}
    (hq : Asks cd float texts per (m ++ l) q) (hsens : q.Sensible)
    (hname : q.name.head? ≠ some '/') {d : Disk α} (ht : d.Tree) (stem : String → String)
    (hstem : ∀ v ∈ (inRunOrder q.timestep q.velocity).take q.fields, '/' ∉ (stem v).toList)
    {st : Started K F} (hst : (startCommand cd float json texts per lower d argv).2.2 = .ok st)
    (files : List (List Char × α)) (hf : ∀ f ∈ files, f.1 ∈ q.fileNames stem) :
    d.LeftBehind ("outputs/".toList ++ q.name) (q.fileNames stem)
      ((startCommand (F := F) cd float json texts per lower d argv).1.writeFiles st.folder files).1 := by
  obtain ⟨P, hP, hst'⟩ := startCommand_sensible (F := F) cd float json texts per lower hl hlow hs hm
    hq hsens hname d
  rw [hst'] at hst ⊢
  cases hst
  have h0 : "outputs/".toList ++ q.name ≠ [] := by simp
  have g := Disk.LeftBehind.folder (names := q.fileNames stem) ht h0
  exact g.trans (Disk.LeftBehind.files files
    (fun f h => ⟨hf f h, fileNames_file hstem (hf f h)⟩) _ g.tree)

/-- The files of a call that ran to its end have the names of the experiment. -/
theorem started_files_named (hl : cd.Lawful)
    (hlow : ∀ s ∈ ["rk4", "euler", "ab2", "cubic", "linear", "nearest", "grid"], lower s = s)
    {argv : List Str} {l m : List (Opt × Str)} (hs : Says cd argv l)
    (hm : FromFile (fun p => (texts p).bind (configItems cd json)) argv l m) {q : Experiment K}
    (hq : Asks cd float texts per (m ++ l) q) (hsens : q.Sensible)
    (hname : q.name.head? ≠ some '/') (d : Disk α) (env : Env K F)
    {st : Started K F} (hst : (startCommand cd float json texts per lower d argv).2.2 = .ok st)
    {H : Host (Shared K) (List ℕ → K) (Option (List F) × List (Event K F))}
    (hH : st.program.host env = .ok H) (mem : ℕ → List ℕ → K)
    {s₀ s : HostState (Shared K) (Option (List F) × List (Event K F))}
    {as : List (Action (Option (List F) × List (Event K F)))}
    {rs : List (Option (Option (List F) × List (Event K F)))}
    (h₀ : H.init mem = .ok s₀) (h : HostState.Exec H mem s₀ as s)
    (hr : s.pool.phase = .returned rs)
    (order : List ℕ) (ho : ∀ i ∈ order, i < q.fields) (file : Saved K F → α) :
    ∀ f ∈ st.files file rs order, f.1 ∈ q.fileNames env.stem := by
  have hacc := hq.accepted
  have hwf := q.wellFormed hsens hacc
  obtain ⟨P, hP, hst'⟩ := startCommand_sensible (F := F) cd float json texts per lower hl hlow hs hm
    hq hsens hname d
  rw [hst'] at hst
  cases hst
  obtain ⟨I, k, w, hsetup, hlen, hall⟩ := C77_output lower hlow env q.args _ _ _ _ _ _ _ hwf P hP H
    hH mem h₀ h hr
  have hw : w = if q.format = "mat" then .mat else .vtk := by
    have hf : q.format = "mat" ∨ q.format = "vtk" := by
      have := hacc.2.2 q.format rfl
      simpa [formatChoices] using this
    unfold setup at hsetup
    split at hsetup
    · cases hsetup
    · split at hsetup
      · cases hsetup
      · have hc : q.args.options.outputFormat = some q.format := rfl
        rw [hc, cliWriter_accepted hf] at hsetup
        simp only [Except.ok.injEq, Prod.mk.injEq] at hsetup
        exact hsetup.2.2.symm
  intro f hf
  obtain ⟨i, hi, hf⟩ := List.mem_flatMap.1 hf
  obtain ⟨t, ps, first, field, events, sv, g1, g2, g3, g4, g5, g6, g7⟩ := hall i (ho i hi)
  have hnm : sv.name = "ftle_" ++ env.stem first ++ q.extension := by
    rw [write_name _ _ _ _ _ g7, hw, Experiment.extension]
    by_cases hf : q.format = "mat"
    · rw [if_pos hf, if_pos hf]
      rfl
    · rw [if_neg hf, if_neg hf]
      rfl
  have hone : (savedBy ((rs[i]?).getD none)).flatMap
      ((Writer.fresh w q.particlesGrid).savedFile file) = [(sv.name.toList, file sv)] := by
    have := savedBy_none_of_names g5 none
    rw [g6, Option.getD_some]
    simp only [savedBy] at this ⊢
    rw [List.filterMap_append, this]
    have g7' : ((Writer.fresh w q.particlesGrid).write ("ftle_" ++ env.stem first)
      (arrayOfList field) ps.initialCentroid).2 = .ok sv := g7
    simp [Writer.savedFile, g7']
  have hf' : f ∈ (savedBy ((rs[i]?).getD none)).flatMap
      ((Writer.fresh w q.particlesGrid).savedFile file) := by rw [hw]; exact hf
  rw [hone, List.mem_singleton] at hf'
  rw [hf', hnm]
  refine List.mem_map.2 ⟨first, List.mem_iff_getElem?.2 ⟨i, ?_⟩, rfl⟩
  rw [List.getElem?_take_of_lt (ho i hi)]
  exact g3

/-- The directories on the way are there at the end. -/
theorem started_way {d : Disk α} {p : PathStr} {names : List (List Char)} (ht : d.Takes p names)
    (h0 : p ≠ []) (files : List (List Char × α)) {x : Loc} (hx : x ∈ d.way p) :
    ((d.openFolder p).1.writeFiles p files).1.node x = some .dir := by
  obtain ⟨r1, r2⟩ := C99_report_partial ht.tree h0 ht.straight
  exact Disk.writeFiles_dir files _ (r2 (r1.2 ht.available) x hx)

/-- **C134.**  Let `d` be a disk and `d'` the same disk after one or more calls that ended early.  Two
calls that ask for the same experiment, one on `d` and one on `d'`, both until the process pool
returns, in any two interleavings, orders of saving and contents of the memory, leave the same disk:
every file, every directory.
Missing: interpolation of scattered data in three dimensions, where the values depend on the contents of
the memory (`C134_scattered_3d_fails`). -/
theorem C134_again_partial (hl : cd.Lawful)
    (hlow : ∀ s ∈ ["rk4", "euler", "ab2", "cubic", "linear", "nearest", "grid"], lower s = s)
    {argv argv' : List Str} {l m l' m' : List (Opt × Str)} (hs : Says cd argv l)
    (hm : FromFile (fun p => (texts p).bind (configItems cd json)) argv l m)
    (hs' : Says cd argv' l')
    (hm' : FromFile (fun p => (texts p).bind (configItems cd json)) argv' l' m')
    {q : Experiment K} (hq : Asks cd float texts per (m ++ l) q)
    (hq' : Asks cd float texts per (m' ++ l') q) (hsens : q.Sensible)
    (hname : q.name.head? ≠ some '/') {d d' : Disk α} (env : Env K F)
    (hstem : ∀ v ∈ (inRunOrder q.timestep q.velocity).take q.fields, '/' ∉ (env.stem v).toList)
    (hn : (((inRunOrder q.timestep q.velocity).take q.fields).map env.stem).Nodup)
    (htakes : d.Takes ("outputs/".toList ++ q.name) (q.fileNames env.stem))
    (hleft : d.LeftBehind ("outputs/".toList ++ q.name) (q.fileNames env.stem) d')
    (hsp : env.sp.Respects) {dim : ℕ}
    (hfill : ∀ (I : AnyInterp K) (k : Kind) (w : WriterKind),
      setup lower ⟨some q.integrator, some q.interpolator, some q.format⟩ q.flowGrid =
      .ok (I, k, w) → I.Fills dim)
    (hdim : ∀ path ∈ inRunOrder q.timestep q.particle, ∀ p, readSeedParticles env.fs path = .ok p →
      ∃ n, p.positions.shape = [n, dim])
    {st st' : Started K F} (hst : (startCommand cd float json texts per lower d argv).2.2 = .ok st)
    (hst' : (startCommand cd float json texts per lower d' argv').2.2 = .ok st')
    {H H' : Host (Shared K) (List ℕ → K) (Option (List F) × List (Event K F))}
    (hH : st.program.host env = .ok H) (hH' : st'.program.host env = .ok H')
    (mem mem' : ℕ → List ℕ → K)
    {s₀ s s₀' s' : HostState (Shared K) (Option (List F) × List (Event K F))}
    {as as' : List (Action (Option (List F) × List (Event K F)))}
    {rs rs' : List (Option (Option (List F) × List (Event K F)))}
    (h₀ : H.init mem = .ok s₀) (h : HostState.Exec H mem s₀ as s)
    (hr : s.pool.phase = .returned rs)
    (h₀' : H'.init mem' = .ok s₀') (h' : HostState.Exec H' mem' s₀' as' s')
    (hr' : s'.pool.phase = .returned rs')
    (order order' : List ℕ) (ho : order.Perm (List.range q.fields))
    (ho' : order'.Perm (List.range q.fields)) (file : Saved K F → α) :
    ((startCommand (F := F) cd float json texts per lower d' argv').1.writeFiles st'.folder
        (st'.files file rs' order')).1.node =
      ((startCommand (F := F) cd float json texts per lower d argv).1.writeFiles st.folder
        (st.files file rs order)).1.node := by
  have htakes' := hleft.takes htakes
  obtain ⟨-, -, I, k, w, e, hall, hrest⟩ := C105_saved (F := F) cd float json texts per lower hl hlow hs
    hm hq hsens hname d env hstem hn htakes hst hH mem h₀ h hr order ho file
  obtain ⟨-, -, I', k', w', e', hall', hrest'⟩ := C105_saved (F := F) cd float json texts per lower hl
    hlow hs' hm' hq' hsens hname d' env hstem hn htakes' hst' hH' mem' h₀' h' hr' order' ho' file
  rw [e] at e'
  cases e'
  rw [hleft.target] at hall' hrest'
  rw [hleft.way] at hrest'
  have h0 : "outputs/".toList ++ q.name ≠ [] := by simp
  have hway : ∀ x ∈ d.way ("outputs/".toList ++ q.name),
      ((startCommand (F := F) cd float json texts per lower d argv).1.writeFiles st.folder
        (st.files file rs order)).1.node x = some .dir := by
    intro x hx
    obtain ⟨P, hP, hc⟩ := startCommand_sensible (F := F) cd float json texts per lower hl hlow hs hm
      hq hsens hname d
    rw [hc] at hst ⊢
    cases hst
    exact started_way htakes h0 _ hx
  have hway' : ∀ x ∈ d.way ("outputs/".toList ++ q.name),
      ((startCommand (F := F) cd float json texts per lower d' argv').1.writeFiles st'.folder
        (st'.files file rs' order')).1.node x = some .dir := by
    intro x hx
    obtain ⟨P, hP, hc⟩ := startCommand_sensible (F := F) cd float json texts per lower hl hlow hs' hm'
      hq' hsens hname d'
    rw [hc] at hst' ⊢
    cases hst'
    exact started_way htakes' h0 _ (hleft.way ▸ hx)
  funext x
  by_cases hx : ∃ n ∈ q.fileNames env.stem, x = d.target ("outputs/".toList ++ q.name) ++ [n]
  · obtain ⟨n, hn', rfl⟩ := hx
    obtain ⟨v, hv, rfl⟩ := List.mem_map.1 hn'
    obtain ⟨i, hi⟩ := List.mem_iff_getElem?.1 hv
    have hif : i < q.fields := by
      by_contra hc
      rw [List.getElem?_eq_none (by rw [List.length_take]; omega)] at hi
      cases hi
    rw [List.getElem?_take_of_lt hif] at hi
    obtain ⟨t, ps, first, field, sv, g1, g2, g3, g4, g5, g6⟩ := hall i hif
    obtain ⟨t', ps', first', field', sv', g1', g2', g3', g4', g5', g6'⟩ := hall' i hif
    obtain rfl := g1.unique g1'
    rw [hi] at g3 g3'
    cases g3
    cases g3'
    rw [g2] at g2'
    cases g2'
    have hpart : t.particleFile ∈ inRunOrder q.timestep q.particle :=
      List.mem_iff_getElem?.2 ⟨_, g1.particle.symm⟩
    obtain ⟨n, hshape⟩ := hdim _ hpart ps g2
    have hj := (C70_deterministic_partial { env with junk := mem i } hsp (mem' i) true none (.file t) I k
      (hfill I k w e) (fun _ h => by cases h) (n := n) (fun p hp => by
        have : readSeedParticles env.fs t.particleFile = .ok p := hp
        rw [g2] at this
        cases this
        exact hshape)).1
    have hj' : (aloneRun { env with junk := mem i } none (.file t) I k).result =
      (aloneRun { env with junk := mem' i } none (.file t) I k).result := hj
    rw [g4, g4'] at hj'
    cases hj'
    rw [g5] at g5'
    cases g5'
    exact g6'.trans g6.symm
  · push Not at hx
    by_cases hxw : x ∈ d.way ("outputs/".toList ++ q.name)
    · exact (hway' x hxw).trans (hway x hxw).symm
    · rcases hrest x hx with a | ⟨-, a, -⟩
      · rcases hrest' x hx with b | ⟨-, b, -⟩
        · rw [a, b]
          rcases hleft.node x with c | ⟨-, c, -⟩ | ⟨n, c, c', -⟩
          · exact c
          · exact absurd c hxw
          · exact absurd c' (hx n c)
        · exact absurd b hxw
      · exact absurd a hxw

/-- **C134 (twice).**  A call that ran to its end, and then the same call again until its end, with any
interleaving, order of saving and contents of the memory: the second changes nothing on the disk.
Missing: scattered data in three dimensions (`C134_scattered_3d_fails`). -/
theorem C134_twice_partial (hl : cd.Lawful)
    (hlow : ∀ s ∈ ["rk4", "euler", "ab2", "cubic", "linear", "nearest", "grid"], lower s = s)
    {argv : List Str} {l m : List (Opt × Str)} (hs : Says cd argv l)
    (hm : FromFile (fun p => (texts p).bind (configItems cd json)) argv l m) {q : Experiment K}
    (hq : Asks cd float texts per (m ++ l) q) (hsens : q.Sensible)
    (hname : q.name.head? ≠ some '/') {d d' : Disk α} (env : Env K F)
    (hstem : ∀ v ∈ (inRunOrder q.timestep q.velocity).take q.fields, '/' ∉ (env.stem v).toList)
    (hn : (((inRunOrder q.timestep q.velocity).take q.fields).map env.stem).Nodup)
    (htakes : d.Takes ("outputs/".toList ++ q.name) (q.fileNames env.stem))
    (hsp : env.sp.Respects) {dim : ℕ}
    (hfill : ∀ (I : AnyInterp K) (k : Kind) (w : WriterKind),
      setup lower ⟨some q.integrator, some q.interpolator, some q.format⟩ q.flowGrid =
      .ok (I, k, w) → I.Fills dim)
    (hdim : ∀ path ∈ inRunOrder q.timestep q.particle, ∀ p, readSeedParticles env.fs path = .ok p →
      ∃ n, p.positions.shape = [n, dim])
    {st st' : Started K F} (hst : (startCommand cd float json texts per lower d argv).2.2 = .ok st)
    {H H' : Host (Shared K) (List ℕ → K) (Option (List F) × List (Event K F))}
    (hH : st.program.host env = .ok H) (mem mem' : ℕ → List ℕ → K)
    {s₀ s s₀' s' : HostState (Shared K) (Option (List F) × List (Event K F))}
    {as as' : List (Action (Option (List F) × List (Event K F)))}
    {rs rs' : List (Option (Option (List F) × List (Event K F)))}
    (h₀ : H.init mem = .ok s₀) (h : HostState.Exec H mem s₀ as s)
    (hr : s.pool.phase = .returned rs)
    (order order' : List ℕ) (ho : order.Perm (List.range q.fields))
    (ho' : order'.Perm (List.range q.fields)) (file : Saved K F → α)
    (hd : d' = ((startCommand (F := F) cd float json texts per lower d argv).1.writeFiles st.folder
      (st.files file rs order)).1)
    (hst' : (startCommand cd float json texts per lower d' argv).2.2 = .ok st')
    (hH' : st'.program.host env = .ok H')
    (h₀' : H'.init mem' = .ok s₀') (h' : HostState.Exec H' mem' s₀' as' s')
    (hr' : s'.pool.phase = .returned rs') :
    ((startCommand (F := F) cd float json texts per lower d' argv).1.writeFiles st'.folder
        (st'.files file rs' order')).1.node = d'.node := by
  have hleft := C134_left (F := F) cd float json texts per lower hl hlow hs hm hq hsens hname
    htakes.tree env.stem hstem hst (st.files file rs order)
    (started_files_named cd float json texts per lower hl hlow hs hm hq hsens hname d env hst hH mem
      h₀ h hr order (fun i hi => List.mem_range.1 (ho.mem_iff.1 hi)) file)
  rw [← hd] at hleft
  rw [C134_again_partial cd float json texts per lower hl hlow hs hm hs hm hq hq hsens hname env hstem
    hn htakes hleft hsp hfill hdim hst hst' hH hH' mem mem' h₀ h hr h₀' h' hr' order order' ho ho' file,
    hd]

end

/-! ## The example -/

/-- The call of the example starts and runs to its end, on any disk. -/
theorem againRuns (d : Disk (Saved ℚ ℚ)) (env : Env ℚ ℚ) (mem : ℕ → List ℕ → ℚ)
    (hstem : env.stem = fun s => s)
    (key : ∀ i < 2, (aloneRun { env with junk := mem i } (some (Writer.fresh .mat none).asWriteFn)
      (.file (exWindow i)) (.scatter (.fresh .linear)) .rk4).result.toBool = true) :
    ∃ (st : Started ℚ ℚ)
    (H : Host (Shared ℚ) (List ℕ → ℚ) (Option (List ℚ) × List (Event ℚ ℚ)))
    (s₀ : HostState (Shared ℚ) (Option (List ℚ) × List (Event ℚ ℚ)))
    (as : List (Action (Option (List ℚ) × List (Event ℚ ℚ))))
    (s : HostState (Shared ℚ) (Option (List ℚ) × List (Event ℚ ℚ)))
    (rs : List (Option (Option (List ℚ) × List (Event ℚ ℚ)))),
    (startCommand asciiData callFloat cfgJson callTexts snapshotsPerPeriod id d
      callArgv).2.2 = .ok st ∧ st.program.host env = .ok H ∧
    H.init mem = .ok s₀ ∧ HostState.Exec H mem s₀ as s ∧ s.pool.phase = .returned rs := by
  obtain ⟨st, H, s₀, h1, h2, -, h4⟩ := C105_starts (F := ℚ) asciiData callFloat cfgJson callTexts
    snapshotsPerPeriod id asciiData_lawful (by simp) callSays callFromFile callAsks callSensible
    (by decide) d env mem
  obtain ⟨bs, s, rs, h5, h6, -⟩ := C105_completes (F := ℚ) asciiData callFloat cfgJson callTexts
    snapshotsPerPeriod id asciiData_lawful (by simp) callSays callFromFile callAsks callSensible
    (by decide) d env h1 h2 mem (by
      intro I k w hs i hi t ht
      obtain ⟨rfl, rfl, rfl⟩ : I = .scatter (.fresh .linear) ∧ k = .rk4 ∧ w = .mat := by
        simp [setup, callExperiment, cliInterpolator, createInterpolator, cliIntegrator,
          createIntegrator, cliWriter, createWriter] at hs
        exact ⟨hs.1.symm, hs.2.1.symm, hs.2.2.symm⟩
      have hi' : i < 2 := hi
      have hw : t = exWindow i := by
        refine ht.unique ?_
        rw [hstem]
        interval_cases i
        · exact ⟨rfl, by decide, rfl, by decide, rfl, rfl, rfl, by decide⟩
        · exact ⟨rfl, by decide, rfl, by decide, rfl, rfl, rfl, by decide⟩
      subst hw
      have := key i hi'
      revert this
      show (aloneRun { env with junk := mem i }
          (some (Writer.fresh .mat none).asWriteFn) (.file (exWindow i))
          (.scatter (.fresh .linear)) .rk4).result.toBool = true → _
      cases hres : (aloneRun { env with junk := mem i }
          (some (Writer.fresh .mat none).asWriteFn) (.file (exWindow i))
          (.scatter (.fresh .linear)) .rk4).result with
      | error e => simp [Except.toBool]
      | ok r => exact fun _ => ⟨r, hres⟩) h4 .nil (by simp) 0 0
  exact ⟨st, H, s₀, _, s, rs, h1, h2, h4, h5, h6⟩

/-- The surroundings of the example; SciPy insists on points in the plane. -/
def againEnv : Env ℚ ℚ := { exProgEnv with sp := exStrict }

/-- A call that was killed while it wrote its second file, then the call again with other contents of
the memory, compared with a call that was not disturbed: the hypotheses of `C134_left` and of
`C134_again_partial` are met. -/
example (halfWritten : Saved ℚ ℚ) : ∃ (st st' : Started ℚ ℚ) (rs rs' : _) (d' : Disk (Saved ℚ ℚ)),
    d' = ((startCommand (F := ℚ) asciiData callFloat cfgJson callTexts snapshotsPerPeriod id callDisk
      callArgv).1.writeFiles st.folder [("ftle_w.mat".toList, halfWritten)]).1 ∧
    callDisk.LeftBehind ("outputs/".toList ++ callExperiment.name)
      (callExperiment.fileNames againEnv.stem) d' ∧
    ((startCommand (F := ℚ) asciiData callFloat cfgJson callTexts snapshotsPerPeriod id d'
      callArgv).1.writeFiles st'.folder (st'.files id rs' [0, 1])).1.node =
    ((startCommand (F := ℚ) asciiData callFloat cfgJson callTexts snapshotsPerPeriod id callDisk
      callArgv).1.writeFiles st.folder (st.files id rs [1, 0])).1.node := by
  obtain ⟨st, H, s₀, bs, s, rs, h1, h2, h3, h4, h5⟩ := againRuns callDisk againEnv (fun _ _ => 7) rfl
    (by decide +kernel)
  have hl := C134_left (F := ℚ) asciiData callFloat cfgJson callTexts snapshotsPerPeriod id
    asciiData_lawful (by simp) callSays callFromFile callAsks callSensible (by decide) callTakes.tree
    againEnv.stem (by decide +kernel) h1 [("ftle_w.mat".toList, halfWritten)] (by
      intro f hf
      rw [show callExperiment.fileNames againEnv.stem = _ from callNames]
      simp only [List.mem_singleton] at hf
      subst hf
      simp)
  generalize hd : ((startCommand (F := ℚ) asciiData callFloat cfgJson callTexts snapshotsPerPeriod id
    callDisk callArgv).1.writeFiles st.folder [("ftle_w.mat".toList, halfWritten)]).1 = d' at hl
  obtain ⟨st', H', s₀', bs', s', rs', h1', h2', h3', h4', h5'⟩ := againRuns d' againEnv
    (fun i _ => i) rfl (by decide +kernel)
  refine ⟨st, st', rs, rs', d', hd.symm, hl, ?_⟩
  refine C134_again_partial (F := ℚ) asciiData callFloat cfgJson callTexts snapshotsPerPeriod id
    asciiData_lawful (by simp) callSays callFromFile callSays callFromFile callAsks callAsks
    callSensible (by decide) againEnv (by decide +kernel) (by decide +kernel) callTakes hl
    exStrict_respects (dim := 2) ?_ ?_ h1 h1' h2 h2' _ _ h3 h4 h5 h3' h4' h5' [1, 0] [0, 1]
    (by decide) (by decide) id
  · intro I k w hs
    simp [setup, callExperiment, cliInterpolator, createInterpolator, cliIntegrator,
      createIntegrator, cliWriter, createWriter] at hs
    rw [← hs.1]
    rfl
  · intro path hp p hr
    have : path = "p" := by
      have h : inRunOrder callExperiment.timestep callExperiment.particle = ["p"] := by decide +kernel
      rw [h] at hp
      simpa using hp
    subst this
    have hsome : (readSeedParticles againEnv.fs "p").toOption.map (fun p => p.positions.shape) =
      some [4, 2] := by decide +kernel
    rw [hr] at hsome
    exact ⟨4, by simpa [Except.toOption] using hsome⟩

/-- What the MAT writer without a grid saves. -/
theorem mat_values {K F : Type} [Zero K] [Inhabited F] {n : String} {field : NDArray F} {c : NDArray K}
    {sv : Saved K F} (h : ((Writer.fresh .mat none).write n field c).2 = .ok sv) :
    ∃ nm x y z, sv = .mat nm field.ravelC x y z := by
  simp only [Writer.write, Writer.fresh, writeMat] at h
  repeat' split at h
  all_goals first
    | cases h; done
    | cases h; exact ⟨_, _, _, _, rfl⟩

/-- Files of the three-dimensional case for the example call. -/
def againEnv3 : Env ℚ ℚ :=
  { exEnv3 (fun _ => 0) with fs := fun path => exRest3 (if path = "w" then "v" else path) }

/-- **C134 is false of the code** for scattered data in three dimensions: after a call that ran to its
end, the same call, until its end and with nothing changed but the contents of the memory, replaces a
file by a different one. -/
theorem C134_scattered_3d_fails : ∃ (st st' : Started ℚ ℚ) (rs rs' : _) (d' : Disk (Saved ℚ ℚ))
    (H H' : Host (Shared ℚ) (List ℕ → ℚ) (Option (List ℚ) × List (Event ℚ ℚ)))
    (mem mem' : ℕ → List ℕ → ℚ) (s₀ s₀' s s' : _) (as as' : _),
    (startCommand asciiData callFloat cfgJson callTexts snapshotsPerPeriod id callDisk callArgv).2.2 =
      .ok st ∧
    st.program.host againEnv3 = .ok H ∧ H.init mem = .ok s₀ ∧ HostState.Exec H mem s₀ as s ∧
    s.pool.phase = .returned rs ∧
    d' = ((startCommand (F := ℚ) asciiData callFloat cfgJson callTexts snapshotsPerPeriod id callDisk
      callArgv).1.writeFiles st.folder (st.files id rs [0, 1])).1 ∧
    (startCommand asciiData callFloat cfgJson callTexts snapshotsPerPeriod id d' callArgv).2.2 =
      .ok st' ∧
    st'.program.host againEnv3 = .ok H' ∧ H'.init mem' = .ok s₀' ∧ HostState.Exec H' mem' s₀' as' s' ∧
    s'.pool.phase = .returned rs' ∧
    ((startCommand (F := ℚ) asciiData callFloat cfgJson callTexts snapshotsPerPeriod id d'
      callArgv).1.writeFiles st'.folder (st'.files id rs' [0, 1])).1.node
        [tmpName, "outputs".toList, "run".toList, "ftle_v.mat".toList] ≠
    d'.node [tmpName, "outputs".toList, "run".toList, "ftle_v.mat".toList] := by
  obtain ⟨st, H, s₀, bs, s, rs, h1, h2, h3, h4, h5⟩ := againRuns callDisk againEnv3 (fun _ _ => 0) rfl
    (by decide +kernel)
  have hl := C134_left (F := ℚ) asciiData callFloat cfgJson callTexts snapshotsPerPeriod id
    asciiData_lawful (by simp) callSays callFromFile callAsks callSensible (by decide) callTakes.tree
    againEnv3.stem (by decide +kernel) h1 (st.files id rs [0, 1])
    (started_files_named (F := ℚ) asciiData callFloat cfgJson callTexts snapshotsPerPeriod id
      asciiData_lawful (by simp) callSays callFromFile callAsks callSensible (by decide) callDisk
      againEnv3 h1 h2 _ h3 h4 h5 [0, 1] (by decide) id)
  obtain ⟨-, -, I, k, w, e, hall, -⟩ := C105_saved (F := ℚ) asciiData callFloat cfgJson callTexts
    snapshotsPerPeriod id asciiData_lawful (by simp) callSays callFromFile callAsks callSensible
    (by decide) callDisk againEnv3 (by decide +kernel) (by decide +kernel) callTakes h1 h2
    (fun _ _ => 0) h3 h4 h5 [0, 1] (by decide) id
  generalize hd : ((startCommand (F := ℚ) asciiData callFloat cfgJson callTexts snapshotsPerPeriod id
    callDisk callArgv).1.writeFiles st.folder (st.files id rs [0, 1])).1 = d' at hl hall
  obtain ⟨st', H', s₀', bs', s', rs', h1', h2', h3', h4', h5'⟩ := againRuns d' againEnv3
    (fun _ idx => if idx = [4, 2] then 6 else 0) rfl (by decide +kernel)
  refine ⟨st, st', rs, rs', d', H, H', _, _, s₀, s₀', s, s', bs, bs', h1, h2, h3, h4, h5, hd.symm,
    h1', h2', h3', h4', h5', ?_⟩
  obtain ⟨-, -, I', k', w', e', hall', -⟩ := C105_saved (F := ℚ) asciiData callFloat cfgJson callTexts
    snapshotsPerPeriod id asciiData_lawful (by simp) callSays callFromFile callAsks callSensible
    (by decide) d' againEnv3 (by decide +kernel) (by decide +kernel) (hl.takes callTakes) h1' h2'
    _ h3' h4' h5' [0, 1] (by decide) id
  rw [e] at e'
  cases e'
  obtain ⟨t, ps, first, field, sv, g1, g2, g3, g4, g5, g6⟩ := hall 0 (by decide)
  obtain ⟨t', ps', first', field', sv', g1', g2', g3', g4', g5', g6'⟩ := hall' 0 (by decide)
  obtain ⟨rfl, rfl, rfl⟩ : I = .scatter (.fresh .linear) ∧ k = .rk4 ∧ w = .mat := by
    simp [setup, callExperiment, cliInterpolator, createInterpolator, cliIntegrator,
      createIntegrator, cliWriter, createWriter] at e
    exact ⟨e.1.symm, e.2.1.symm, e.2.2.symm⟩
  obtain rfl := g1.unique g1'
  obtain rfl : t = exWindow 0 :=
    g1.unique ⟨rfl, by decide, rfl, by decide, rfl, rfl, rfl, by decide⟩
  rw [g2] at g2'
  cases g2'
  have g3 : some "v" = some first := g3
  have g3' : some "v" = some first' := g3'
  cases g3
  cases g3'
  rw [hl.target] at g6'
  rw [callTarget] at g6 g6'
  have n1 : (aloneRun { againEnv3 with junk := fun _ => 0 } none (.file (exWindow 0))
    (.scatter (.fresh .linear)) .rk4).result.toOption.join = some [1] := by decide +kernel
  have n2 : (aloneRun { againEnv3 with junk := fun idx => if idx = [4, 2] then 6 else 0 } none
    (.file (exWindow 0)) (.scatter (.fresh .linear)) .rk4).result.toOption.join = some [7] := by
    decide +kernel
  have m1 : some field = some [1] := by
    rw [← n1]
    exact (congrArg (fun r => r.toOption.join) g4).symm
  have m2 : some field' = some [7] := by
    rw [← n2]
    exact (congrArg (fun r => r.toOption.join) g4').symm
  cases m1
  cases m2
  intro hc
  have hc' := (g6'.symm.trans hc).trans g6
  simp only [id, Option.some.injEq, Node.file.injEq] at hc'
  subst hc'
  obtain ⟨nm, x, y, z, r1⟩ := mat_values g5
  obtain ⟨nm', x', y', z', r2⟩ := mat_values g5'
  rw [r1] at r2
  simp only [Saved.mat.injEq] at r2
  have := congrArg (fun a => a.get [0]) r2.2.1
  revert this
  decide +kernel

end Verif
