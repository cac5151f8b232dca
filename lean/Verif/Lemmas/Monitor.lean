import Verif.Spec.Messages
import Mathlib.Data.List.Perm.Subperm
import Mathlib.Data.List.Dedup
import Mathlib.Data.List.Nodup
import Mathlib.Tactic.Tauto

/-! # Invariant of the progress monitor -/

namespace Verif

/-- A step message is followed by another message of the same task. -/
def WellFormed : List ProgressMsg → Prop
  | [] => True
  | (_, none) :: r => WellFormed r
  | (id, some _) :: r => r.head?.map Prod.fst = some id ∧ WellFormed r

/-- The identifiers of the next messages. -/
def heads (ss : List (List ProgressMsg)) : List String := ss.filterMap fun s => s.head?.map Prod.fst

structure MonitorInv (workers : ℕ) (m : Monitor) (ss : List (List ProgressMsg)) (d : ℕ) : Prop where
  count : ss.length = workers
  wf : ∀ s ∈ ss, WellFormed s
  keys : (m.bars.map Prod.fst).Nodup
  sub : ∀ id ∈ m.bars.map Prod.fst, id ∈ heads ss
  rows : (m.rows ++ m.freeRows).Perm ((List.range workers).map (· + 1))
  fin : m.finished = d ∧ m.globalBar = d

theorem lookup_none_iff {bars : List (String × Bar)} {id : String} :
    bars.lookup id = none ↔ id ∉ bars.map Prod.fst := by
  induction bars with
  | nil => simp
  | cons x bars ih =>
    obtain ⟨k, b⟩ := x
    rw [List.lookup_cons]
    by_cases h : id == k
    · simp only [h]
      have : id = k := by simpa using h
      simp [this]
    · simp only [h]
      have : id ≠ k := by simpa using h
      simp [ih, this]

theorem heads_split (pre post : List (List ProgressMsg)) (s : List ProgressMsg) :
    heads (pre ++ s :: post) = heads pre ++ (s.head?.map Prod.fst).toList ++ heads post := by
  unfold heads
  rw [List.filterMap_append, List.filterMap_cons]
  cases s.head?.map Prod.fst <;> simp

theorem heads_length (ss : List (List ProgressMsg)) : (heads ss).length ≤ ss.length :=
  List.length_filterMap_le _ _

theorem setBar_keys {bars : List (String × Bar)} {id : String} {b : Bar}
    (h : id ∈ bars.map Prod.fst) : (setBar bars id b).map Prod.fst = bars.map Prod.fst := by
  unfold setBar
  rw [if_pos h, List.map_map]
  refine List.map_congr_left fun x _ => ?_
  simp only [Function.comp]
  split
  · rename_i hx; exact hx.symm
  · rfl

theorem lookup_mem {bars : List (String × Bar)} {id : String} {b : Bar}
    (h : bars.lookup id = some b) : (id, b) ∈ bars := by
  induction bars with
  | nil => simp at h
  | cons x bars ih =>
    obtain ⟨k, c⟩ := x
    rw [List.lookup_cons] at h
    by_cases hk : id == k
    · simp only [hk] at h
      have : id = k := by simpa using hk
      cases h
      simp [this]
    · simp only [hk] at h
      exact List.mem_cons_of_mem _ (ih h)

theorem setBar_rows {bars : List (String × Bar)} {id : String} {b : Bar} {k : ℕ}
    (hn : (bars.map Prod.fst).Nodup) (h : bars.lookup id = some b) :
    (setBar bars id { b with n := k }).map (fun x => x.2.pos.natAbs) =
      bars.map fun x => x.2.pos.natAbs := by
  have hm := lookup_mem h
  have hin : id ∈ bars.map Prod.fst := List.mem_map.2 ⟨_, hm, rfl⟩
  unfold setBar
  rw [if_pos hin, List.map_map]
  refine List.map_congr_left fun x hx => ?_
  simp only [Function.comp]
  split
  · rename_i hxi
    have : x = (id, b) := List.inj_on_of_nodup_map hn hx hm (by simpa using hxi)
    rw [this]
  · rfl

theorem filter_rows {bars : List (String × Bar)} {id : String} {b : Bar}
    (hn : (bars.map Prod.fst).Nodup) (h : bars.lookup id = some b) :
    ((bars.filter fun x => x.1 ≠ id).map (fun x => x.2.pos.natAbs) ++ [b.pos.natAbs]).Perm
      (bars.map fun x => x.2.pos.natAbs) := by
  induction bars with
  | nil => simp at h
  | cons x bars ih =>
    obtain ⟨k, c⟩ := x
    simp only [List.map_cons, List.nodup_cons] at hn
    rw [List.lookup_cons] at h
    by_cases hk : id == k
    · simp only [hk] at h
      obtain rfl : id = k := by simpa using hk
      cases h
      have : bars.filter (fun x => x.1 ≠ id) = bars := by
        refine List.filter_eq_self.2 fun x hx => ?_
        have : x.1 ≠ id := fun he => hn.1 (he ▸ List.mem_map.2 ⟨x, hx, rfl⟩)
        simpa using this
      rw [List.filter_cons]
      simp only [ne_eq, not_true_eq_false, decide_false, Bool.false_eq_true, if_false]
      simp only [ne_eq] at this
      rw [this]
      simp only [List.map_cons]
      exact List.perm_append_singleton _ _
    · simp only [hk] at h
      have hk' : k ≠ id := fun he => hk (by simp [he])
      rw [List.filter_cons]
      simp only [ne_eq, hk', not_false_eq_true, decide_true, if_true, List.map_cons,
        List.cons_append]
      exact (ih hn.2 h).cons _

theorem MonitorInv.handle {workers : ℕ} {m : Monitor} {pre post : List (List ProgressMsg)}
    {x : ProgressMsg} {r : List ProgressMsg} {d : ℕ}
    (h : MonitorInv workers m (pre ++ (x :: r) :: post) d) :
    ∃ m', m.handle x = .ok m' ∧
      MonitorInv workers m' (pre ++ r :: post) (d + if x.2 = none then 1 else 0) := by
  obtain ⟨id, o⟩ := x
  have hcount : (pre ++ r :: post).length = workers := by
    have := h.count
    simpa using this
  have hwf0 := h.wf ((id, o) :: r) (by simp)
  have hheads := heads_split pre post ((id, o) :: r)
  simp only [List.head?_cons, Option.map_some, Option.toList_some] at hheads
  have hheads' := heads_split pre post r
  cases o with
  | none =>
    have hwf : ∀ s ∈ pre ++ r :: post, WellFormed s := by
      intro s hs
      simp only [List.mem_append, List.mem_cons] at hs
      rcases hs with hs | rfl | hs
      · exact h.wf s (by simp [hs])
      · exact hwf0
      · exact h.wf s (by simp [hs])
    unfold Monitor.handle
    simp only
    cases hl : m.bars.lookup id with
    | none =>
      refine ⟨_, rfl, hcount, hwf, h.keys, ?_, h.rows, by simp [h.fin.1], by simp [h.fin.2]⟩
      intro j hj
      have hne : j ≠ id := fun he => lookup_none_iff.1 hl (he ▸ hj)
      have := h.sub j hj
      rw [hheads] at this
      rw [hheads']
      simp only [List.mem_append, List.mem_singleton] at this ⊢
      tauto
    | some b =>
      refine ⟨_, rfl, hcount, hwf, ?_, ?_, ?_, by simp [h.fin.1], by simp [h.fin.2]⟩
      · exact h.keys.sublist (List.Sublist.map _ List.filter_sublist)
      · intro j hj
        obtain ⟨y, hy, rfl⟩ := List.mem_map.1 hj
        obtain ⟨hy1, hy2⟩ := List.mem_filter.1 hy
        have hne : y.1 ≠ id := by simpa using hy2
        have := h.sub y.1 (List.mem_map.2 ⟨y, hy1, rfl⟩)
        rw [hheads] at this
        rw [hheads']
        simp only [List.mem_append, List.mem_singleton] at this ⊢
        tauto
      · refine List.Perm.trans ?_ h.rows
        have := filter_rows h.keys hl
        simp only [Monitor.rows, Monitor.freeRows, List.map_append, List.map_cons, List.map_nil]
        refine List.Perm.trans ?_ (this.append_right _)
        rw [List.append_assoc]
        exact List.Perm.append_left _ List.perm_append_comm
  | some k =>
    obtain ⟨hhd, hwfr⟩ := hwf0
    have hsame : heads (pre ++ r :: post) = heads (pre ++ ((id, some k) :: r) :: post) := by
      rw [hheads', hheads, hhd]
      rfl
    have hwf : ∀ s ∈ pre ++ r :: post, WellFormed s := by
      intro s hs
      simp only [List.mem_append, List.mem_cons] at hs
      rcases hs with hs | rfl | hs
      · exact h.wf s (by simp [hs])
      · exact hwfr
      · exact h.wf s (by simp [hs])
    unfold Monitor.handle
    simp only [Option.some_ne_none, if_false, Nat.add_zero]
    cases hl : m.bars.lookup id with
    | some b =>
      simp only [hl]
      have hin : id ∈ m.bars.map Prod.fst := List.mem_map.2 ⟨_, lookup_mem hl, rfl⟩
      refine ⟨_, rfl, hcount, hwf, ?_, ?_, ?_, h.fin⟩
      · rw [setBar_keys hin]; exact h.keys
      · rw [setBar_keys hin, hsame]; exact h.sub
      · simp only [Monitor.rows, Monitor.freeRows]
        rw [setBar_rows h.keys hl]
        exact h.rows
    | none =>
      have hout := lookup_none_iff.1 hl
      -- a slot is free
      have hlt : m.bars.length < workers := by
        have h1 : (id :: m.bars.map Prod.fst).Subperm (heads (pre ++ ((id, some k) :: r) :: post)) := by
          refine List.Nodup.subperm (List.nodup_cons.2 ⟨hout, h.keys⟩) ?_
          intro j hj
          rcases List.mem_cons.1 hj with rfl | hj
          · rw [hheads]; simp
          · exact h.sub j hj
        have h2 := h1.length_le
        have h3 := heads_length (pre ++ ((id, some k) :: r) :: post)
        have h4 := h.count
        simp only [List.length_cons, List.length_map] at h2
        omega
      have hlen := h.rows.length_eq
      simp only [List.length_append, Monitor.rows, Monitor.freeRows, List.length_map,
        List.length_range] at hlen
      cases hs : m.slots with
      | nil => rw [hs] at hlen; simp at hlen; omega
      | cons pos rest =>
        simp only
        have hset : setBar m.bars id ⟨-pos, 0⟩ = m.bars ++ [(id, ⟨-pos, 0⟩)] := by
          unfold setBar
          rw [if_neg hout]
        have hl' : (setBar m.bars id ⟨-pos, 0⟩).lookup id = some ⟨-pos, 0⟩ := by
          rw [hset, List.lookup_append, hl]
          simp
        have hk' : ((setBar m.bars id ⟨-pos, 0⟩).map Prod.fst).Nodup := by
          rw [hset]
          simp only [List.map_append, List.map_cons, List.map_nil]
          refine List.nodup_append.2 ⟨h.keys, by simp, ?_⟩
          intro a ha b hb
          rw [List.mem_singleton.1 hb]
          rintro rfl
          exact hout ha
        have hin' : id ∈ (setBar m.bars id ⟨-pos, 0⟩).map Prod.fst :=
          List.mem_map.2 ⟨_, lookup_mem hl', rfl⟩
        rw [hl']
        simp only
        refine ⟨_, rfl, hcount, hwf, ?_, ?_, ?_, h.fin⟩
        · rw [setBar_keys hin']; exact hk'
        · rw [setBar_keys hin', hset, hsame]
          intro j hj
          simp only [List.map_append, List.map_cons, List.map_nil, List.mem_append,
            List.mem_singleton] at hj
          rcases hj with hj | rfl
          · exact h.sub j hj
          · rw [hheads]; simp
        · simp only [Monitor.rows, Monitor.freeRows]
          rw [setBar_rows hk' hl', hset]
          refine List.Perm.trans ?_ h.rows
          simp only [Monitor.rows, Monitor.freeRows, hs, List.map_append, List.map_cons,
            List.map_nil, Int.natAbs_neg, List.append_assoc, List.singleton_append]
          exact List.Perm.refl _

theorem setBar_lookup (bars : List (String × Bar)) (id j : String) (b : Bar) :
    (setBar bars id b).lookup j = if j = id then some b else bars.lookup j := by
  unfold setBar
  split
  · rename_i hin
    induction bars with
    | nil => simp at hin
    | cons x bars ih =>
      obtain ⟨k, c⟩ := x
      simp only [List.map_cons]
      by_cases hk : k = id
      · subst hk
        simp only [if_true]
        rw [List.lookup_cons, List.lookup_cons]
        by_cases hj : j = k
        · simp [hj]
        · have hj' : (j == k) = false := by simpa using hj
          simp only [hj', hj, if_false]
          clear ih hin
          induction bars with
          | nil => rfl
          | cons y bars ih =>
            obtain ⟨k', c'⟩ := y
            simp only [List.map_cons]
            by_cases hk' : k' = k
            · subst hk'
              simp only [if_true]
              rw [List.lookup_cons, List.lookup_cons]
              simp only [hj']
              exact ih
            · simp only [hk', if_false]
              rw [List.lookup_cons, List.lookup_cons, ih]
      · simp only [hk, if_false]
        rw [List.lookup_cons, List.lookup_cons]
        have hin' : id ∈ bars.map Prod.fst := by
          simp only [List.map_cons, List.mem_cons] at hin
          rcases hin with h | h
          · exact (hk h.symm).elim
          · exact h
        by_cases hj : j = k
        · subst hj
          simp [hk]
        · have hj' : (j == k) = false := by simpa using hj
          simp only [hj']
          exact ih hin'
  · rename_i hout
    rw [List.lookup_append]
    by_cases hj : j = id
    · subst hj
      rw [lookup_none_iff.2 hout]
      simp
    · have hj' : (j == id) = false := by simpa using hj
      simp only [List.lookup_cons, hj', hj, if_false]
      simp

theorem filter_lookup (bars : List (String × Bar)) (id j : String) :
    (bars.filter fun x => x.1 ≠ id).lookup j = if j = id then none else bars.lookup j := by
  induction bars with
  | nil => simp
  | cons x bars ih =>
    obtain ⟨k, c⟩ := x
    rw [List.filter_cons]
    by_cases hk : k = id
    · subst hk
      simp only [ne_eq, not_true_eq_false, decide_false, Bool.false_eq_true, if_false]
      simp only [ne_eq] at ih
      rw [ih, List.lookup_cons]
      by_cases hj : j = k
      · simp [hj]
      · have hj' : (j == k) = false := by simpa using hj
        simp [hj, hj']
    · simp only [ne_eq, hk, not_false_eq_true, decide_true, if_true]
      simp only [ne_eq] at ih
      rw [List.lookup_cons, List.lookup_cons, ih]
      by_cases hj : j = k
      · subst hj
        simp [hk]
      · have hj' : (j == k) = false := by simpa using hj
        simp [hj']

/-- Effect of a message on the bars. -/
theorem Monitor.handle_lookup {m m' : Monitor} {x : ProgressMsg} (h : m.handle x = .ok m')
    (j : String) :
    (j = x.1 → (m'.bars.lookup j).map (·.n) = x.2) ∧
    (j ≠ x.1 → m'.bars.lookup j = m.bars.lookup j) ∧
    (∀ b, m.bars.lookup j = some b → (j, none) ≠ x →
      ∃ b', m'.bars.lookup j = some b' ∧ b'.pos = b.pos) := by
  obtain ⟨id, o⟩ := x
  unfold Monitor.handle at h
  cases o with
  | none =>
    simp only at h
    cases hl : m.bars.lookup id with
    | none =>
      rw [hl] at h
      cases h
      simp only
      refine ⟨?_, fun _ => trivial, fun b hb _ => ⟨b, hb, rfl⟩⟩
      rintro rfl
      simp [hl]
    | some b =>
      rw [hl] at h
      cases h
      simp only [filter_lookup]
      refine ⟨?_, ?_, ?_⟩
      · rintro rfl; simp
      · intro hj; simp [hj]
      · intro b hb hne
        have : j ≠ id := fun he => hne (by rw [he])
        simp [this, hb]
  | some k =>
    simp only at h
    have key : ∀ m₁ : Monitor, (∀ j, j ≠ id → m₁.bars.lookup j = m.bars.lookup j) →
        (∀ b, m.bars.lookup id = some b → m₁.bars.lookup id = some b) →
        (match m₁.bars.lookup id with
          | none => .error .keyError
          | some b => .ok { m₁ with bars := setBar m₁.bars id { b with n := k } } : Py Monitor) =
          .ok m' →
        (j = id → (m'.bars.lookup j).map (·.n) = some k) ∧
        (j ≠ id → m'.bars.lookup j = m.bars.lookup j) ∧
        (∀ b, m.bars.lookup j = some b → (j, none) ≠ (id, some k) →
          ∃ b', m'.bars.lookup j = some b' ∧ b'.pos = b.pos) := by
      intro m₁ h1 h2 h3
      cases hl : m₁.bars.lookup id with
      | none => rw [hl] at h3; cases h3
      | some b =>
        rw [hl] at h3
        cases h3
        simp only [setBar_lookup]
        refine ⟨?_, ?_, ?_⟩
        · rintro rfl; simp
        · intro hj; simp [hj, h1 j hj]
        · intro b' hb' _
          by_cases hj : j = id
          · subst hj
            have := h2 b' hb'
            rw [hl] at this
            cases this
            simp
          · simp [hj, h1 j hj, hb']
    cases hl : m.bars.lookup id with
    | some b =>
      rw [hl] at h
      exact key m (fun _ _ => rfl) (fun _ h => h) h
    | none =>
      cases hs : m.slots with
      | nil =>
        rw [hl, hs] at h
        exact key m (fun _ _ => rfl) (fun _ h => h) h
      | cons pos rest =>
        rw [hl, hs] at h
        simp only at h
        refine key ({ m with
          slots := rest
          bars := setBar m.bars id ⟨-pos, 0⟩ }) ?_ ?_ h
        · intro j hj; simp [setBar_lookup, hj]
        · intro b hb; rw [hl] at hb; cases hb

theorem Monitor.drain_append (m : Monitor) (as bs : List ProgressMsg) :
    m.drain (as ++ bs) =
      match m.drain as with
      | .error e => .error e
      | .ok m' => m'.drain bs := by
  induction as generalizing m with
  | nil => rfl
  | cons a as ih =>
    simp only [List.cons_append, Monitor.drain]
    cases m.handle a with
    | error e => rfl
    | ok m' => exact ih m'

theorem wellFormed_task (id : String) (steps : ℕ) (r : List ProgressMsg) (h : WellFormed r) :
    WellFormed (taskMessages id steps ++ r) := by
  have key : ∀ l : List ℕ, WellFormed (l.map (fun k => (id, some k)) ++ ((id, none) :: r)) := by
    intro l
    induction l with
    | nil => exact h
    | cons k l ih =>
      refine ⟨?_, ih⟩
      cases l <;> rfl
  unfold taskMessages
  simpa using key (List.range steps)

theorem wellFormed_worker (tasks : List (String × ℕ)) : WellFormed (workerMessages tasks) := by
  induction tasks with
  | nil => trivial
  | cons t tasks ih =>
    unfold workerMessages at ih ⊢
    rw [List.flatMap_cons]
    exact wellFormed_task _ _ _ ih

theorem doneCount_append (a b : List ProgressMsg) :
    doneCount (a ++ b) = doneCount a + doneCount b := by simp [doneCount]

theorem lastStep_snoc (l : List ProgressMsg) (x : ProgressMsg) (id : String) :
    lastStep (l ++ [x]) id = if x.1 = id then x.2 else lastStep l id := by
  unfold lastStep
  rw [List.filter_append]
  obtain ⟨j, o⟩ := x
  by_cases h : j = id
  · simp only [h, if_true]
    simp
    cases o <;> rfl
  · simp [h]

theorem Emits.monitor {ss ss' : List (List ProgressMsg)} {l : List ProgressMsg} {workers : ℕ}
    (h : Emits ss l ss') {m₀ : Monitor} (h₀ : MonitorInv workers m₀ ss 0) (hb : m₀.bars = []) :
    ∃ m, m₀.drain l = .ok m ∧ MonitorInv workers m ss' (doneCount l) ∧
      ∀ id, (m.bars.lookup id).map (·.n) = lastStep l id := by
  induction h with
  | nil => exact ⟨m₀, rfl, h₀, fun id => by simp [hb, lastStep]⟩
  | @snoc l pre post x r _ ih =>
    obtain ⟨m, h1, h2, h3⟩ := ih
    obtain ⟨m', h4, h5⟩ := h2.handle
    refine ⟨m', ?_, ?_, ?_⟩
    · rw [Monitor.drain_append, h1]
      simp only [Monitor.drain, h4]
    · rw [doneCount_append]
      convert h5 using 2
      cases hx : x.2 <;> simp [doneCount, hx]
    · intro id
      rw [lastStep_snoc]
      obtain ⟨k1, k2, -⟩ := Monitor.handle_lookup h4 id
      by_cases hid : x.1 = id
      · rw [if_pos hid]; exact k1 hid.symm
      · rw [if_neg hid, k2 (fun he => hid he.symm)]; exact h3 id

theorem Emits.doneCount {ss ss' : List (List ProgressMsg)} {l : List ProgressMsg}
    (h : Emits ss l ss') :
    Verif.doneCount l + (ss'.map Verif.doneCount).sum = (ss.map Verif.doneCount).sum := by
  induction h with
  | nil => simp [Verif.doneCount]
  | @snoc l pre post x r _ ih =>
    rw [← ih]
    simp only [List.map_append, List.map_cons, List.sum_append, List.sum_cons, doneCount_append]
    have : Verif.doneCount (x :: r) = Verif.doneCount [x] + Verif.doneCount r :=
      doneCount_append [x] r
    omega

theorem doneCount_worker (tasks : List (String × ℕ)) :
    doneCount (workerMessages tasks) = tasks.length := by
  induction tasks with
  | nil => rfl
  | cons t tasks ih =>
    unfold workerMessages at ih ⊢
    rw [List.flatMap_cons, doneCount_append, ih]
    have : (List.range t.2).filter ((fun m : ProgressMsg => decide (m.2 = none)) ∘
        fun k => (t.1, some k)) = [] := List.filter_eq_nil_iff.2 (by simp)
    simp only [taskMessages, doneCount, List.filter_append, List.filter_map, this]
    simp
    omega

theorem MonitorInv.init (workers : ℕ) (ss : List (List (String × ℕ))) (h : ss.length = workers) :
    MonitorInv workers (Monitor.init workers) (ss.map workerMessages) 0 := by
  refine ⟨by simpa using h, ?_, by simp [Monitor.init], by simp [Monitor.init], ?_, rfl, rfl⟩
  · intro s hs
    obtain ⟨t, _, rfl⟩ := List.mem_map.1 hs
    exact wellFormed_worker t
  · simp only [Monitor.rows, Monitor.freeRows, Monitor.init, List.map_nil, List.nil_append,
      List.map_map, pyRange, Int.toNat_natCast]
    refine List.Perm.of_eq (List.map_congr_left fun k _ => ?_)
    simp only [Function.comp]
    omega

theorem Monitor.handle_finished {m m' : Monitor} {x : ProgressMsg} (h : m.handle x = .ok m') :
    m'.finished = m.finished + doneCount [x] := by
  obtain ⟨id, o⟩ := x
  unfold Monitor.handle at h
  cases o with
  | none =>
    simp only at h
    split at h <;> cases h <;> simp [doneCount]
  | some k =>
    simp only at h
    cases hl : m.bars.lookup id <;> cases hs : m.slots <;> simp only [hl, hs] at h
    all_goals
      try split at h
    all_goals
      cases h
    all_goals
      simp [doneCount]

theorem Monitor.drain_finished {m m' : Monitor} {l : List ProgressMsg} (h : m.drain l = .ok m') :
    m'.finished = m.finished + doneCount l := by
  induction l generalizing m with
  | nil => cases h; rfl
  | cons x l ih =>
    simp only [Monitor.drain] at h
    cases hx : m.handle x with
    | error e => rw [hx] at h; cases h
    | ok m₁ =>
      rw [hx] at h
      have := ih h
      have := Monitor.handle_finished hx
      have := doneCount_append [x] l
      simp only [List.singleton_append] at this
      omega

theorem Monitor.loop_running (total : ℕ) (m : Monitor) (passes : List (Bool × List ProgressMsg))
    (hs : ∀ p ∈ passes, p.1 = false)
    (hd : m.finished + doneCount (passes.flatMap Prod.snd) < total) :
    m.loop total passes = (m.drain (passes.flatMap Prod.snd)).map (·, false) := by
  induction passes generalizing m with
  | nil => rfl
  | cons p passes ih =>
    obtain ⟨stop, msgs⟩ := p
    obtain rfl : stop = false := hs (stop, msgs) (by simp)
    simp only [List.flatMap_cons, doneCount_append] at hd
    rw [Monitor.loop, if_pos ⟨by simp, by omega⟩, List.flatMap_cons, Monitor.drain_append]
    cases hm : m.drain msgs with
    | error e => rfl
    | ok m' =>
      have := Monitor.drain_finished hm
      exact ih m' (fun p hp => hs p (List.mem_cons_of_mem _ hp)) (by omega)

end Verif
