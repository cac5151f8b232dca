import Verif.Spec.Grow
import Verif.Props.Again

/-!
# C139: more snapshots

A measurement goes on and the program is called again with the longer lists.
-/

namespace Verif

section
variable {K : Type} [Zero K] [LT K] [DecidableLT K]

/-- By how much the windows have moved. -/
def moved (dt : K) (k : ℕ) : ℕ := if dt < 0 then k else 0

theorem grown_snapshot {dt : K} {old more : List (List Char)} {x : ℕ} (hx : x < old.length) :
    (inRunOrder dt (old ++ more))[x + moved dt more.length]? = (inRunOrder dt old)[x]? := by
  unfold inRunOrder moved
  rw [List.getElem?_map, List.getElem?_map]
  congr 1
  split_ifs
  · rw [List.reverse_append, List.getElem?_append_right (by simp)]
    simp
  · rw [Nat.add_zero, List.getElem?_append_left hx]

theorem grown_other {dt : K} {n k : ℕ} {old new : List (List Char)} (h : Continues (dt < 0) n k old new)
    {x : ℕ} (hx : x < n) :
    (inRunOrder dt new)[(x + moved dt k) % (inRunOrder dt new).length]? =
      (inRunOrder dt old)[x % (inRunOrder dt old).length]? := by
  have hl : ∀ f, (inRunOrder dt f).length = f.length := fun f => by
    unfold inRunOrder; split_ifs <;> simp
  rw [hl, hl]
  rcases h with ⟨h1, more, rfl, rfl⟩ | ⟨rfl, h2⟩
  · have hm : moved dt more.length ≤ more.length := by unfold moved; split_ifs <;> omega
    rw [Nat.mod_eq_of_lt (by rw [List.length_append]; omega), Nat.mod_eq_of_lt (by omega)]
    exact grown_snapshot (by omega)
  · congr 1
    unfold moved
    split_ifs with hd
    · obtain ⟨c, hc⟩ := h2 hd
      rw [hc, Nat.add_mul_mod_self_left]
    · rw [Nat.add_zero]

/-- Windows of different lists that have the same entries. -/
theorem IsWindow.agree {stem : String → String} {snap coord part snap' coord' part' : List String}
    {dt : K} {p i i' : ℕ} {t t' : FileSource K} (hp : 1 ≤ p)
    (h : IsWindow stem snap coord part dt p i t) (h' : IsWindow stem snap' coord' part' dt p i' t')
    (hs : ∀ k < p, snap'[i' + k]? = snap[i + k]?)
    (hc : ∀ k < p, coord'[(i' + k) % coord'.length]? = coord[(i + k) % coord.length]?)
    (hq : part'[i' % part'.length]? = part[i % part.length]?) : t' = t :=
  IsWindow.unique (stem := stem) (snap := snap) (coord := coord) (part := part) (dt := dt) (p := p)
    (i := i)
    ⟨h'.snapshots_length, fun k hk => (h'.snapshots k hk).trans (hs k hk), h'.coordinates_length,
      fun k hk => (h'.coordinates k hk).trans (hc k hk), h'.particle.trans hq, h'.timestep,
      h'.id.trans (by rw [show snap'[i']? = snap[i]? from hs 0 (by omega)]), h'.reuse⟩ h

theorem Experiment.GrowsTo.window {q q' : Experiment K} {k : ℕ} (h : q.GrowsTo k q') (h1 : 1 ≤ q.snapshots)
    (h2 : q.snapshots ≤ q.velocity.length) {stem : String → String} {i : ℕ} (hi : i < q.fields)
    {t t' : FileSource K}
    (w : IsWindow stem (inRunOrder q.timestep q.velocity) (inRunOrder q.timestep q.coordinate)
      (inRunOrder q.timestep q.particle) q.timestep q.snapshots i t)
    (w' : IsWindow stem (inRunOrder q'.timestep q'.velocity) (inRunOrder q'.timestep q'.coordinate)
      (inRunOrder q'.timestep q'.particle) q'.timestep q'.snapshots (i + moved q.timestep k) t') :
    t' = t := by
  rw [h.timestep, h.snapshots] at w'
  unfold Experiment.fields at hi
  obtain ⟨more, rfl, hv⟩ := h.velocity
  refine w.agree h1 w' (fun j hj => ?_) (fun j hj => ?_) ?_
  · rw [hv, Nat.add_right_comm]
    exact grown_snapshot (by omega)
  · rw [Nat.add_right_comm]
    exact grown_other h.coordinate (by omega)
  · exact grown_other h.particle (by omega)

theorem Experiment.GrowsTo.fields {q q' : Experiment K} {k : ℕ} (h : q.GrowsTo k q')
    (h2 : q.snapshots ≤ q.velocity.length) : q'.fields = q.fields + k := by
  obtain ⟨more, rfl, hv⟩ := h.velocity
  unfold Experiment.fields
  rw [hv, h.snapshots, List.length_append]
  omega

theorem Experiment.GrowsTo.first {q q' : Experiment K} {k : ℕ} (h : q.GrowsTo k q')
    {i : ℕ} (hi : i < q.velocity.length) :
    (inRunOrder q'.timestep q'.velocity)[i + moved q.timestep k]? =
      (inRunOrder q.timestep q.velocity)[i]? := by
  obtain ⟨more, rfl, hv⟩ := h.velocity
  rw [hv, h.timestep]
  exact grown_snapshot hi

theorem Experiment.GrowsTo.sublist {q q' : Experiment K} {k : ℕ} (h : q.GrowsTo k q')
    (h2 : q.snapshots ≤ q.velocity.length) :
    ((inRunOrder q.timestep q.velocity).take q.fields).Sublist
      ((inRunOrder q'.timestep q'.velocity).take q'.fields) := by
  rw [h.fields h2, h.timestep]
  obtain ⟨more, rfl, hv⟩ := h.velocity
  rw [hv]
  unfold inRunOrder
  rw [← List.map_take, ← List.map_take]
  refine List.Sublist.map _ ?_
  split_ifs
  · rw [List.reverse_append, Nat.add_comm, ← List.length_reverse (as := more), List.take_length_add_append]
    exact List.sublist_append_right _ _
  · have : (q.velocity.take q.fields).Sublist ((q.velocity ++ more).take q.fields) := by
      rw [List.take_append]
      exact List.sublist_append_left _ _
    exact this.trans (List.take_sublist_take_left (Nat.le_add_right _ _))

theorem Experiment.GrowsTo.extension {q q' : Experiment K} {k : ℕ} (h : q.GrowsTo k q') :
    q'.extension = q.extension := by
  unfold Experiment.extension
  rw [h.format, h.particlesGrid]

theorem Experiment.GrowsTo.fileNames {q q' : Experiment K} {k : ℕ} (h : q.GrowsTo k q') (h1 : 1 ≤ q.snapshots)
    (h2 : q.snapshots ≤ q.velocity.length) (stem : String → String) :
    ∀ n ∈ q.fileNames stem, n ∈ q'.fileNames stem := by
  intro n hn
  obtain ⟨v, hv, rfl⟩ := List.mem_map.1 hn
  obtain ⟨i, hi⟩ := List.mem_iff_getElem?.1 hv
  have hif : i < q.fields := by
    by_contra hc
    rw [List.getElem?_eq_none (by rw [List.length_take]; omega)] at hi
    cases hi
  rw [List.getElem?_take_of_lt hif] at hi
  refine List.mem_map.2 ⟨v, List.mem_iff_getElem?.2 ⟨i + moved q.timestep k, ?_⟩, ?_⟩
  · rw [List.getElem?_take_of_lt, h.first (by unfold Experiment.fields at hif; omega), hi]
    rw [h.fields h2]
    unfold moved
    split_ifs <;> omega
  · rw [h.extension]

end

/-- **C139 fails for coordinate files that repeat, in backward runs.**  The files of the list belong to
different grids and the number of added snapshots is no multiple of their number.  Every window of the
shorter list has then a window with the same snapshots and the same identifier, so the same name of the
output file, but its velocities are put on other grids: the call replaces each of the earlier files. -/
theorem C139_backward_fails {K : Type} [Zero K] [LT K] [DecidableLT K] (stem : String → String)
    (M : Manager K) (more : List String) (hneg : M.timestep < 0) (p : ℕ) (hp : 1 ≤ p)
    (hn : p ≤ M.snapshotFiles.length) (hc : M.coordinateFiles ≠ []) (hq : M.particleFiles ≠ [])
    (hnd : M.coordinateFiles.Nodup) (hdvd : ¬ M.coordinateFiles.length ∣ more.length) :
    ∃ tasks tasks', M.handleTimeDirection.createBatches stem p = .ok tasks ∧
      ({ M with snapshotFiles := M.snapshotFiles ++ more } : Manager K).handleTimeDirection.createBatches
        stem p = .ok tasks' ∧
      tasks.length = M.snapshotFiles.length - p + 1 ∧
      ∀ i < tasks.length, ∃ t t', tasks[i]? = some t ∧ tasks'[i + more.length]? = some t' ∧
        t'.snapshotFiles = t.snapshotFiles ∧ t'.id = t.id ∧
        ∀ j < p, t'.coordinateFiles[j]? ≠ t.coordinateFiles[j]? := by
  have e : M.handleTimeDirection = ⟨M.snapshotFiles.reverse, M.coordinateFiles.reverse,
      M.particleFiles.reverse, M.timestep⟩ := by
    unfold Manager.handleTimeDirection; rw [if_pos hneg]
  have e' : ({ M with snapshotFiles := M.snapshotFiles ++ more } : Manager K).handleTimeDirection =
      ⟨(M.snapshotFiles ++ more).reverse, M.coordinateFiles.reverse, M.particleFiles.reverse,
        M.timestep⟩ := by
    unfold Manager.handleTimeDirection; rw [if_pos hneg]
  rw [e, e']
  obtain ⟨a, a1, a2, a3⟩ := C43_windows stem ⟨M.snapshotFiles.reverse, M.coordinateFiles.reverse,
    M.particleFiles.reverse, M.timestep⟩ p hp (by simpa using hn) (by simpa using hc) (by simpa using hq)
  obtain ⟨b, b1, b2, b3⟩ := C43_windows stem ⟨(M.snapshotFiles ++ more).reverse,
    M.coordinateFiles.reverse, M.particleFiles.reverse, M.timestep⟩ p hp
    (by simp only [List.length_reverse, List.length_append]; omega) (by simpa using hc)
    (by simpa using hq)
  simp only [List.length_reverse, List.length_append] at a2 a3 b2 b3
  refine ⟨a, b, a1, b1, a2, fun i hi => ?_⟩
  obtain ⟨t, t1, w⟩ := a3 i (by omega)
  obtain ⟨t', t1', w'⟩ := b3 (i + more.length) (by omega)
  have same : ∀ x, ((M.snapshotFiles ++ more).reverse)[x + more.length]? = M.snapshotFiles.reverse[x]? := by
    intro x
    rw [List.reverse_append, List.getElem?_append_right (by simp)]
    simp
  refine ⟨t, t', t1, t1', List.ext_getElem? fun j => ?_, ?_, fun j hj h => hdvd ?_⟩
  · rcases Nat.lt_or_ge j p with hj | hj
    · rw [w.snapshots j hj, w'.snapshots j hj, Nat.add_right_comm, same]
    · rw [List.getElem?_eq_none (by rw [w'.snapshots_length]; exact hj),
        List.getElem?_eq_none (by rw [w.snapshots_length]; exact hj)]
  · have := w'.id
    rw [same, ← w.id] at this
    exact Option.some.inj this
  · rw [w.coordinates j hj, w'.coordinates j hj] at h
    have hpos : 0 < M.coordinateFiles.length := List.length_pos_of_ne_nil hc
    rw [List.length_reverse] at h
    have hm := (List.getElem?_inj (by rw [List.length_reverse]; exact Nat.mod_lt _ hpos)
      (List.nodup_reverse.2 hnd)).1 h
    have hmod : i + j + more.length ≡ i + j + 0 [MOD M.coordinateFiles.length] := by
      rw [Nat.add_right_comm] at hm
      exact hm
    exact (Nat.modEq_zero_iff_dvd).1 (Nat.ModEq.add_left_cancel' _ hmod)

theorem Disk.LeftBehind.mono {α : Type} {d d' : Disk α} {p : PathStr} {names names' : List (List Char)}
    (h : d.LeftBehind p names d') (hn : ∀ n ∈ names, n ∈ names') : d.LeftBehind p names' d' :=
  ⟨h.cwd, h.locked, h.tree, fun x => (h.node x).imp_right fun a => a.imp_right
    fun ⟨n, b, c⟩ => ⟨n, hn n b, c⟩⟩

section
variable {K F α : Type} [Zero K] [One K] [Add K] [Sub K] [Mul K] [Div K] [NatCast K] [IntCast K]
  [Min K] [Max K] [NumLits K] [DecidableEq K] [LT K] [DecidableLT K] [Inhabited F]
  (cd : CharData) (float : Str → Option K) (json : Str → List Str) (texts : Str → Option Str)
  (per : K → K → Py ℤ) (lower : String → String)

/-- **C139.**  The program has been called for an experiment, until its end; then snapshots are added and
it is called for the longer experiment, until its end, with other list files, arguments, numbers of
processes, interleavings, orders of saving and contents of the memory.  Every file of the first call is
as it was, every new field is in its file, and nothing else on the disk has changed.
Missing: scattered data in three dimensions (`C134_scattered_3d_fails`), and lists of coordinate files
that repeat, in backward runs (`C139_backward_fails`). -/
theorem C139_disk_partial {texts' : Str → Option Str} (hl : cd.Lawful)
    (hlow : ∀ s ∈ ["rk4", "euler", "ab2", "cubic", "linear", "nearest", "grid"], lower s = s)
    {argv argv' : List Str} {l m l' m' : List (Opt × Str)} (hs : Says cd argv l)
    (hm : FromFile (fun p => (texts p).bind (configItems cd json)) argv l m)
    (hs' : Says cd argv' l')
    (hm' : FromFile (fun p => (texts' p).bind (configItems cd json)) argv' l' m')
    {q q' : Experiment K} (hq : Asks cd float texts per (m ++ l) q)
    (hq' : Asks cd float texts' per (m' ++ l') q') (hsens : q.Sensible) (hsens' : q'.Sensible) {k : ℕ}
    (hgrow : q.GrowsTo k q') (hname : q.name.head? ≠ some '/') {d d' : Disk α} (env : Env K F)
    (hstem : ∀ v ∈ (inRunOrder q'.timestep q'.velocity).take q'.fields, '/' ∉ (env.stem v).toList)
    (hn : (((inRunOrder q'.timestep q'.velocity).take q'.fields).map env.stem).Nodup)
    (htakes : d.Takes ("outputs/".toList ++ q.name) (q'.fileNames env.stem))
    (hsp : env.sp.Respects) {dim : ℕ}
    (hfill : ∀ (I : AnyInterp K) (k : Kind) (w : WriterKind),
      setup lower ⟨some q.integrator, some q.interpolator, some q.format⟩ q.flowGrid =
      .ok (I, k, w) → I.Fills dim)
    (hdim : ∀ path ∈ inRunOrder q.timestep q.particle, ∀ p, readSeedParticles env.fs path = .ok p →
      ∃ n, p.positions.shape = [n, dim])
    {st st' : Started K F} (hst : (startCommand cd float json texts per lower d argv).2.2 = .ok st)
    {H H' : Host (Shared K) (List ℕ → K) (Option (List F) × List (Event K F))}
    (hH : st.program.host env = .ok H) (mem mem' : ℕ → List ℕ → K)
    {s₀ s s₀' s' : HostState (Shared K) (Option (List F) × List (Event K F))}
    {as as' : List (Action (Option (List F) × List (Event K F)))}
    {rs rs' : List (Option (Option (List F) × List (Event K F)))}
    (h₀ : H.init mem = .ok s₀) (h : HostState.Exec H mem s₀ as s)
    (hr : s.pool.phase = .returned rs)
    (order order' : List ℕ) (ho : order.Perm (List.range q.fields))
    (ho' : order'.Perm (List.range q'.fields)) (file : Saved K F → α)
    (hd : d' = ((startCommand (F := F) cd float json texts per lower d argv).1.writeFiles st.folder
      (st.files file rs order)).1)
    (hst' : (startCommand cd float json texts' per lower d' argv').2.2 = .ok st')
    (hH' : st'.program.host env = .ok H')
    (h₀' : H'.init mem' = .ok s₀') (h' : HostState.Exec H' mem' s₀' as' s')
    (hr' : s'.pool.phase = .returned rs') :
    let final := ((startCommand (F := F) cd float json texts' per lower d' argv').1.writeFiles st'.folder
      (st'.files file rs' order')).1
    let folder := d.target ("outputs/".toList ++ q.name)
    (∀ n ∈ q.fileNames env.stem, ∃ c, d'.node (folder ++ [n]) = some (.file c) ∧
      final.node (folder ++ [n]) = some (.file c)) ∧
    (∀ n ∈ q'.fileNames env.stem, ∃ c, final.node (folder ++ [n]) = some (.file c)) ∧
    ∀ x, (∀ n ∈ q'.fileNames env.stem, x ≠ folder ++ [n]) → final.node x = d'.node x := by
  intro final folder
  have h1 := hsens.one_le
  have h2 := hsens.enough
  have hsub := hgrow.fileNames h1 h2 env.stem
  have hmem : ∀ v ∈ (inRunOrder q.timestep q.velocity).take q.fields,
      v ∈ (inRunOrder q'.timestep q'.velocity).take q'.fields := fun v hv =>
    (hgrow.sublist h2).mem hv
  have hstem0 : ∀ v ∈ (inRunOrder q.timestep q.velocity).take q.fields, '/' ∉ (env.stem v).toList :=
    fun v hv => hstem v (hmem v hv)
  have hn0 : (((inRunOrder q.timestep q.velocity).take q.fields).map env.stem).Nodup :=
    hn.sublist ((hgrow.sublist h2).map _)
  have htakes0 : d.Takes ("outputs/".toList ++ q.name) (q.fileNames env.stem) :=
    ⟨htakes.tree, htakes.straight, htakes.available, htakes.unlocked, fun n hn =>
      htakes.free n (hsub n hn)⟩
  have hleft := (C134_left (F := F) cd float json texts per lower hl hlow hs hm hq hsens hname
    htakes.tree env.stem hstem0 hst (st.files file rs order)
    (started_files_named cd float json texts per lower hl hlow hs hm hq hsens hname d env hst hH mem
      h₀ h hr order (fun i hi => List.mem_range.1 (ho.mem_iff.1 hi)) file)).mono hsub
  rw [← hd] at hleft
  have htakes' := hleft.takes htakes
  obtain ⟨-, -, I, kd, w, e, hall, hrest⟩ := C105_saved (F := F) cd float json texts per lower hl hlow hs
    hm hq hsens hname d env hstem0 hn0 htakes0 hst hH mem h₀ h hr order ho file
  rw [← hd] at hall hrest
  obtain ⟨-, -, I', k', w', e', hall', hrest'⟩ := C105_saved (F := F) cd float json texts' per lower hl
    hlow hs' hm' hq' hsens' (by rw [hgrow.name]; exact hname) d' env hstem hn
    (by rw [hgrow.name]; exact htakes') hst' hH' mem' h₀' h' hr' order' ho' file
  rw [hgrow.integrator, hgrow.interpolator, hgrow.format, hgrow.flowGrid, e] at e'
  cases e'
  rw [hgrow.name] at hall' hrest'
  rw [hleft.target] at hall' hrest'
  rw [hleft.way] at hrest'
  have h0 : "outputs/".toList ++ q.name ≠ [] := by simp
  have hway : ∀ x ∈ d.way ("outputs/".toList ++ q.name), d'.node x = some .dir := by
    intro x hx
    obtain ⟨P, hP, hc⟩ := startCommand_sensible (F := F) cd float json texts per lower hl hlow hs hm
      hq hsens hname d
    rw [hd]
    rw [hc] at hst ⊢
    cases hst
    exact started_way htakes0 h0 _ hx
  refine ⟨fun n hn' => ?_, fun n hn' => ?_, fun x hx => ?_⟩
  · obtain ⟨v, hv, rfl⟩ := List.mem_map.1 hn'
    obtain ⟨i, hi⟩ := List.mem_iff_getElem?.1 hv
    have hif : i < q.fields := by
      by_contra hc
      rw [List.getElem?_eq_none (by rw [List.length_take]; omega)] at hi
      cases hi
    rw [List.getElem?_take_of_lt hif] at hi
    have hif' : i + moved q.timestep k < q'.fields := by
      rw [hgrow.fields h2]; unfold moved; split_ifs <;> omega
    obtain ⟨t, ps, first, field, sv, g1, g2, g3, g4, g5, g6⟩ := hall i hif
    obtain ⟨t', ps', first', field', sv', g1', g2', g3', g4', g5', g6'⟩ := hall' _ hif'
    obtain rfl := hgrow.window h1 h2 hif g1 g1'
    rw [hgrow.first (by unfold Experiment.fields at hif; omega)] at g3'
    rw [hi] at g3 g3'
    cases g3
    cases g3'
    rw [g2] at g2'
    cases g2'
    have hpart : t'.particleFile ∈ inRunOrder q.timestep q.particle :=
      List.mem_iff_getElem?.2 ⟨_, g1.particle.symm⟩
    obtain ⟨n, hshape⟩ := hdim _ hpart ps g2
    have hj := (C70_deterministic_partial { env with junk := mem i } hsp
      (mem' (i + moved q.timestep k)) true none (.file t') I kd
      (hfill I kd w e) (fun _ h => by cases h) (n := n) (fun p hp => by
        have : readSeedParticles env.fs t'.particleFile = .ok p := hp
        rw [g2] at this
        cases this
        exact hshape)).1
    have hj' : (aloneRun { env with junk := mem i } none (.file t') I kd).result =
      (aloneRun { env with junk := mem' (i + moved q.timestep k) } none (.file t') I kd).result := hj
    rw [g4, g4'] at hj'
    cases hj'
    rw [hgrow.particlesGrid, g5] at g5'
    cases g5'
    rw [hgrow.extension] at g6'
    exact ⟨_, g6, g6'⟩
  · obtain ⟨v, hv, rfl⟩ := List.mem_map.1 hn'
    obtain ⟨i, hi⟩ := List.mem_iff_getElem?.1 hv
    have hif : i < q'.fields := by
      by_contra hc
      rw [List.getElem?_eq_none (by rw [List.length_take]; omega)] at hi
      cases hi
    rw [List.getElem?_take_of_lt hif] at hi
    obtain ⟨t, ps, first, field, sv, g1, g2, g3, g4, g5, g6⟩ := hall' i hif
    rw [hi] at g3
    cases g3
    exact ⟨_, g6⟩
  · rcases hrest' x hx with b | ⟨b1, b2, b3⟩
    · exact b
    · rw [hway x b2] at b1
      cases b1

end

end Verif
