import Verif.Props.Monitor
import Mathlib.Data.Finset.Card

/-!
# C52: exactly when the progress monitor survives

For any sequence of messages whatsoever, also those of tasks that fail or workers that die.
-/

namespace Verif

/-- The tasks that have reported a step and not, since then, `"done"`. -/
def unfinished (l : List ProgressMsg) : Finset String :=
  (l.map Prod.fst).toFinset.filter fun id => (lastStep l id).isSome

theorem mem_unfinished {l : List ProgressMsg} {id : String} :
    id ∈ unfinished l ↔ (lastStep l id).isSome := by
  simp only [unfinished, Finset.mem_filter, List.mem_toFinset, and_iff_right_iff_imp]
  intro h
  by_contra hno
  have : l.filter (fun m => m.1 = id) = [] := by
    rw [List.filter_eq_nil_iff]
    intro m hm
    simp only [decide_eq_true_eq]
    rintro rfl
    exact hno (List.mem_map_of_mem hm)
  simp [lastStep, this] at h

/-- What is true of the monitor after the messages `l`. -/
structure MonitorAfter (n : ℕ) (m : Monitor) (l : List ProgressMsg) : Prop where
  nodup : (m.bars.map Prod.fst).Nodup
  keys : (m.bars.map Prod.fst).toFinset = unfinished l
  count : m.slots.length + m.bars.length = n

theorem MonitorAfter.card {n : ℕ} {m : Monitor} {l : List ProgressMsg} (h : MonitorAfter n m l) :
    (unfinished l).card = m.bars.length := by
  rw [← h.keys, List.toFinset_card_of_nodup h.nodup, List.length_map]

theorem lookup_isSome_iff {bars : List (String × Bar)} {id : String} :
    (bars.lookup id).isSome ↔ id ∈ bars.map Prod.fst := by
  rw [← not_iff_not, ← lookup_none_iff, Option.not_isSome_iff_eq_none]

theorem MonitorAfter.keys_step {n : ℕ} {m m' : Monitor} {l : List ProgressMsg}
    (h : MonitorAfter n m l) {x : ProgressMsg} (hx : m.handle x = .ok m') :
    (m'.bars.map Prod.fst).toFinset = unfinished (l ++ [x]) := by
  ext j
  rw [List.mem_toFinset, ← lookup_isSome_iff, mem_unfinished, lastStep_snoc]
  obtain ⟨h1, h2, -⟩ := Monitor.handle_lookup hx j
  by_cases hj : j = x.1
  · rw [if_pos hj.symm, ← h1 hj]
    simp
  · rw [if_neg (Ne.symm hj), h2 hj, ← mem_unfinished, ← h.keys, List.mem_toFinset,
      lookup_isSome_iff]

theorem MonitorAfter.step {n : ℕ} {m : Monitor} {l : List ProgressMsg} (h : MonitorAfter n m l)
    (x : ProgressMsg) :
    (m.handle x = .error .keyError ∧ n < (unfinished (l ++ [x])).card) ∨
      ∃ m', m.handle x = .ok m' ∧ MonitorAfter n m' (l ++ [x]) ∧
        (unfinished (l ++ [x])).card ≤ n := by
  have good : ∀ m', m.handle x = .ok m' → (m'.bars.map Prod.fst).Nodup →
      m'.slots.length + m'.bars.length = n →
      ∃ m', m.handle x = .ok m' ∧ MonitorAfter n m' (l ++ [x]) ∧
        (unfinished (l ++ [x])).card ≤ n := by
    intro m' h1 h2 h3
    have hA : MonitorAfter n m' (l ++ [x]) := ⟨h2, h.keys_step h1, h3⟩
    exact ⟨m', h1, hA, by rw [hA.card]; omega⟩
  have hcount := h.count
  obtain ⟨id, o⟩ := x
  cases o with
  | none =>
    right
    cases hb : m.bars.lookup id with
    | none =>
      exact good { m with finished := m.finished + 1, globalBar := m.globalBar + 1 }
        (by simp [Monitor.handle, hb]) h.nodup h.count
    | some b =>
      refine good { bars := m.bars.filter fun x => x.1 ≠ id
                    slots := m.slots ++ [b.pos]
                    finished := m.finished + 1
                    globalBar := m.globalBar + 1 } (by simp [Monitor.handle, hb]) ?_ ?_
      · exact h.nodup.sublist (List.filter_sublist.map _)
      · have := (filter_rows h.nodup hb).length_eq
        simp only [List.length_append, List.length_map, List.length_singleton] at this ⊢
        omega
  | some k =>
    cases hb : m.bars.lookup id with
    | some b =>
      right
      have hin : id ∈ m.bars.map Prod.fst := lookup_isSome_iff.1 (by simp [hb])
      refine good { m with bars := setBar m.bars id { b with n := k } }
        (by simp [Monitor.handle, hb]) ?_ ?_
      · rw [setBar_keys hin]; exact h.nodup
      · have := congrArg List.length (setBar_keys (b := { b with n := k }) hin)
        simp only [List.length_map] at this
        rw [← h.count]
        exact congrArg _ this
    | none =>
      have hnin : id ∉ m.bars.map Prod.fst := lookup_none_iff.1 hb
      cases hs : m.slots with
      | nil =>
        left
        refine ⟨by simp [Monitor.handle, hb, hs], ?_⟩
        have hsub : insert id (unfinished l) ⊆ unfinished (l ++ [(id, some k)]) := by
          intro j hj
          rw [mem_unfinished, lastStep_snoc]
          by_cases hji : id = j
          · simp [hji]
          · rw [if_neg hji, ← mem_unfinished]
            exact (Finset.mem_insert.1 hj).resolve_left (Ne.symm hji)
        have h1 := Finset.card_le_card hsub
        rw [Finset.card_insert_of_notMem (by rw [← h.keys, List.mem_toFinset]; exact hnin),
          h.card] at h1
        simp [hs] at hcount
        omega
      | cons pos rest =>
        right
        have e1 : setBar m.bars id ⟨-pos, 0⟩ = m.bars ++ [(id, ⟨-pos, 0⟩)] := by
          simp only [setBar, if_neg hnin]
        have hl : (setBar m.bars id ⟨-pos, 0⟩).lookup id = some ⟨-pos, 0⟩ := by
          rw [setBar_lookup]; simp
        have hin : id ∈ (setBar m.bars id ⟨-pos, 0⟩).map Prod.fst :=
          lookup_isSome_iff.1 (by rw [hl]; rfl)
        refine good { m with
            slots := rest
            bars := setBar (setBar m.bars id ⟨-pos, 0⟩) id ⟨-pos, k⟩ }
          (by simp [Monitor.handle, hb, hs, hl]) ?_ ?_
        · rw [setBar_keys hin, e1, List.map_append, List.nodup_append]
          refine ⟨h.nodup, by simp, ?_⟩
          rintro a ha b hb' rfl
          simp only [List.map_cons, List.map_nil, List.mem_singleton] at hb'
          exact hnin (hb' ▸ ha)
        · have := congrArg List.length (setBar_keys (b := ⟨-pos, k⟩) hin)
          simp only [List.length_map, e1, List.length_append, List.length_singleton] at this
          simp only [hs, List.length_cons] at hcount
          dsimp only
          rw [e1]
          omega

theorem MonitorAfter.drain {n : ℕ} {m : Monitor} {l : List ProgressMsg} (h : MonitorAfter n m l)
    (msgs : List ProgressMsg) :
    (m.drain msgs = .error .keyError ∧
        ∃ as x bs, msgs = as ++ x :: bs ∧ n < (unfinished (l ++ as ++ [x])).card) ∨
      ∃ m', m.drain msgs = .ok m' ∧ MonitorAfter n m' (l ++ msgs) ∧
        ∀ as x bs, msgs = as ++ x :: bs → (unfinished (l ++ as ++ [x])).card ≤ n := by
  induction msgs generalizing m l with
  | nil => exact .inr ⟨m, rfl, by simpa using h, by simp⟩
  | cons x msgs ih =>
    rcases h.step x with ⟨h1, h2⟩ | ⟨m', h1, h2, h3⟩
    · exact .inl ⟨by simp [Monitor.drain, h1], [], x, msgs, rfl, by simpa using h2⟩
    · rcases ih h2 with ⟨g1, as, y, bs, rfl, g2⟩ | ⟨m'', g1, g2, g3⟩
      · exact .inl ⟨by simp [Monitor.drain, h1, g1], x :: as, y, bs, rfl, by simpa using g2⟩
      · refine .inr ⟨m'', by simp [Monitor.drain, h1, g1], by simpa using g2, ?_⟩
        rintro (- | ⟨a, as⟩) y bs he
        · simp only [List.nil_append, List.cons.injEq] at he
          obtain ⟨rfl, rfl⟩ := he
          simpa using h3
        · simp only [List.cons_append, List.cons.injEq] at he
          obtain ⟨rfl, rfl⟩ := he
          simpa using g3 as y bs rfl

/-- **C52** (exactly).  For every sequence of messages: the monitor of `n` workers survives it if and
only if at no moment more than `n` tasks have reported a step and not yet `"done"`; otherwise it dies
with `KeyError`.  (Successful tasks never violate this, C52_monitor_partial; a task that fails after
its first step stays unfinished for ever.) -/
theorem C52_survives_iff (n : ℕ) (msgs : List ProgressMsg) :
    ((∃ m, (Monitor.init n).drain msgs = .ok m) ↔
      ∀ l, l <+: msgs → (unfinished l).card ≤ n) ∧
    ((¬ ∃ m, (Monitor.init n).drain msgs = .ok m) →
      (Monitor.init n).drain msgs = .error .keyError) := by
  have h0 : MonitorAfter n (Monitor.init n) [] :=
    ⟨by simp [Monitor.init], by simp [Monitor.init, unfinished], by simp [Monitor.init, pyRange]⟩
  rcases h0.drain msgs with ⟨h1, as, x, bs, h2, h3⟩ | ⟨m', h1, -, h3⟩
  · rw [h1]
    refine ⟨⟨by simp, fun h => ?_⟩, fun _ => rfl⟩
    have := h (as ++ [x]) ⟨bs, by simp [h2]⟩
    simp only [List.nil_append] at h3
    omega
  · rw [h1]
    refine ⟨⟨fun _ l hl => ?_, fun _ => ⟨m', rfl⟩⟩, fun h => absurd ⟨m', rfl⟩ h⟩
    obtain ⟨bs, rfl⟩ := hl
    rcases l.eq_nil_or_concat with rfl | ⟨as, x, rfl⟩
    · simp [unfinished]
    · have := h3 as x bs (by simp)
      simpa [List.concat_eq_append] using this

/-- Two workers survive one failed task, but not two. -/
example : (∃ m, (Monitor.init 2).drain [("a", some 0), ("b", some 0), ("b", none), ("c", some 0)] =
      .ok m) ∧
    ¬ ∃ m, (Monitor.init 2).drain [("a", some 0), ("b", some 0), ("c", some 0)] = .ok m := by
  constructor
  · exact ⟨_, rfl⟩
  · intro h
    exact absurd ((C52_survives_iff 2 _).1.1 h _ (List.prefix_refl _)) (by decide)

end Verif
