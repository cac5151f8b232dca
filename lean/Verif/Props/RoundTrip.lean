import Verif.Props.FileUtils

/-!
# C61: exactly which file lists survive
-/

namespace Verif

/-- Characters of the first field of the record under construction. -/
def Csv.cur (s : Csv) : ℕ := ((s.record.getLast?).getD s.field).length

/-- Characters of the text that are accounted for by first fields and ends of lines. -/
def Csv.used (s : Csv) : ℕ := (s.records.map fun r => (r.headD []).length + 1).sum + s.cur

/-- A field without the characters that end it. -/
def LineChars (p : List Char) : Prop := ∀ c ∈ p, c ≠ '\n' ∧ c ≠ '\r' ∧ c ≠ ','

/-- A line the tokenizer takes literally. -/
def LineOk (p : List Char) : Prop :=
  LineChars p ∧ (∃ c ∈ p, c ≠ ' ' ∧ c ≠ '\t') ∧ p.head? ≠ some '"'

/-- So far every line was taken literally. -/
structure Csv.Clean (s : Csv) : Prop where
  records : ∀ r ∈ s.records, ∃ p, r = [p] ∧ LineOk p
  record : s.record = []
  mode : s.mode = .startRecord ∧ s.field = [] ∨ s.mode = .afterCr ∧ s.field = [] ∨
    s.mode = .blankLine ∧ s.field ≠ [] ∧ (∀ c ∈ s.field, c = ' ' ∨ c = '\t') ∨
    s.mode = .inField ∧ LineOk s.field.reverse

theorem Csv.used_endField (s : Csv) : s.endField.used = s.used := by
  unfold Csv.used Csv.cur Csv.endField
  cases h : s.record with
  | nil => simp
  | cons a l =>
    obtain ⟨b, hb⟩ : ∃ b, (a :: l).getLast? = some b := ⟨_, List.getLast?_eq_some_getLast (by simp)⟩
    simp [List.getLast?_cons_cons, hb]

theorem Csv.used_endLine (s : Csv) (m : Tok) (h : s.record ≠ []) (hf : s.field = []) : (s.endLine m).used = s.used + 1 := by
  unfold Csv.used Csv.cur Csv.endLine
  obtain ⟨a, ha⟩ : ∃ a, s.record.getLast? = some a := by
    cases e : s.record.getLast? with
    | none => exact absurd (List.getLast?_eq_none_iff.1 e) h
    | some a => exact ⟨a, rfl⟩
  simp [ha, hf]
  omega

theorem Csv.used_fieldChar (s : Csv) (c : Char) : (s.fieldChar c).used ≤ s.used + 1 := by
  unfold Csv.fieldChar
  have hne : s.endField.record ≠ [] := by simp [Csv.endField]
  split
  · rw [Csv.used_endLine _ _ hne rfl, Csv.used_endField]
  split
  · rw [Csv.used_endLine _ _ hne rfl, Csv.used_endField]
  split
  · have : ({ s.endField with mode := .startField } : Csv).used = s.endField.used := rfl
    rw [this, Csv.used_endField]
    omega
  · unfold Csv.used Csv.cur
    cases s.record.getLast? <;> simp
    omega

theorem Csv.used_startChar (s : Csv) (c : Char) : (s.startChar c).used ≤ s.used + 1 := by
  unfold Csv.startChar
  split
  · exact Nat.le_succ _
  · exact Csv.used_fieldChar s c

theorem Csv.used_recordChar (s : Csv) (c : Char) : (s.recordChar c).used ≤ s.used + 1 := by
  unfold Csv.recordChar
  split
  · exact Nat.le_succ _
  split
  · exact Nat.le_succ _
  split
  · unfold Csv.used Csv.cur
    cases s.record.getLast? <;> simp
  · exact Csv.used_startChar s c

theorem Csv.used_step (s : Csv) (c : Char) : (s.step c).used ≤ s.used + 1 := by
  have e (m : Tok) : ({ s with mode := m, field := [] } : Csv).used ≤ s.used + 1 := by
    unfold Csv.used Csv.cur
    cases s.record.getLast? <;> simp
    omega
  have e' (m : Tok) (d : Char) : ({ s with mode := m, field := d :: s.field } : Csv).used ≤ s.used + 1 := by
    unfold Csv.used Csv.cur
    cases s.record.getLast? <;> simp
    omega
  unfold Csv.step
  split
  · exact Csv.used_recordChar s c
  · split
    · exact Nat.le_succ _
    · exact Csv.used_recordChar s c
  · split
    · exact e _
    split
    · exact e _
    split
    · exact e' s.mode c
    · exact Csv.used_fieldChar s c
  · exact Csv.used_startChar s c
  · exact Csv.used_fieldChar s c
  · split
    · exact Nat.le_succ _
    · exact e' s.mode c
  · split
    · exact e' _ _
    · exact Csv.used_fieldChar s c

/-- The end of a literal line. -/
theorem Csv.Clean.endLine {s : Csv} (h : s.Clean) (hf : LineOk s.field.reverse) (m : Tok)
    (hm : m = .startRecord ∨ m = .afterCr) : (s.endField.endLine m).Clean := by
  refine ⟨?_, rfl, ?_⟩
  · intro r hr
    simp only [Csv.endLine, Csv.endField, h.record, List.mem_cons] at hr
    rcases hr with rfl | hr
    · exact ⟨_, rfl, hf⟩
    · exact h.records r hr
  · rcases hm with rfl | rfl
    · exact .inl ⟨rfl, rfl⟩
    · exact .inr (.inl ⟨rfl, rfl⟩)

theorem Csv.used_comma (s : Csv) : ({ s.endField with mode := .startField } : Csv).used = s.used :=
  Csv.used_endField s

/-- One more character. -/
theorem Csv.Clean.step {s : Csv} (h : s.Clean) (c : Char) :
    (s.step c).Clean ∨ (s.step c).used ≤ s.used := by
  have start (hf : s.field = []) : (s.recordChar c).Clean ∨ (s.recordChar c).used ≤ s.used := by
    unfold Csv.recordChar
    split
    · exact .inr le_rfl
    rename_i h1
    split
    · exact .inr le_rfl
    rename_i h2
    split
    · rename_i h3
      refine .inl ⟨h.records, h.record, .inr (.inr (.inl ⟨rfl, by simp, ?_⟩))⟩
      simpa using h3
    rename_i h3
    unfold Csv.startChar
    split
    · exact .inr le_rfl
    rename_i h4
    unfold Csv.fieldChar
    rw [if_neg h1, if_neg h2]
    split
    · rw [Csv.used_comma]
      exact .inr le_rfl
    rename_i h5
    refine .inl ⟨h.records, h.record, .inr (.inr (.inr ⟨rfl, ?_⟩))⟩
    simp only [not_or] at h3
    simp only [hf, List.reverse_cons, List.reverse_nil, List.nil_append]
    refine ⟨?_, ⟨c, by simp, h3⟩, by simpa using h4⟩
    intro d hd
    obtain rfl : d = c := by simpa using hd
    exact ⟨h1, h2, h5⟩
  rcases h.mode with ⟨hm, hf⟩ | ⟨hm, hf⟩ | ⟨hm, hne, hb⟩ | ⟨hm, hl⟩
  · simp only [Csv.step, hm]
    exact start hf
  · simp only [Csv.step, hm]
    split
    · exact .inr le_rfl
    · exact start hf
  · simp only [Csv.step, hm]
    have zero (m : Tok) : ({ s with mode := m, field := [] } : Csv).used ≤ s.used := by
      unfold Csv.used Csv.cur
      rw [h.record]
      simp
    split
    · exact .inr (zero _)
    rename_i h1
    split
    · exact .inr (zero _)
    rename_i h2
    split
    · rename_i h3
      refine .inl ⟨h.records, h.record, .inr (.inr (.inl ⟨rfl, by simp, ?_⟩))⟩
      intro d hd
      rcases List.mem_cons.1 hd with rfl | hd
      · exact h3
      · exact hb d hd
    rename_i h3
    unfold Csv.fieldChar
    rw [if_neg h1, if_neg h2]
    split
    · rw [Csv.used_comma]
      exact .inr le_rfl
    rename_i h5
    refine .inl ⟨h.records, h.record, .inr (.inr (.inr ⟨rfl, ?_⟩))⟩
    simp only [not_or] at h3
    refine ⟨?_, ⟨c, by simp, h3⟩, ?_⟩
    · intro d hd
      simp only [List.reverse_cons, List.mem_append, List.mem_reverse, List.mem_singleton] at hd
      rcases hd with hd | rfl
      · rcases hb d hd with rfl | rfl <;> decide
      · exact ⟨h1, h2, h5⟩
    · simp only [List.reverse_cons]
      rw [List.head?_append]
      obtain ⟨a, ha⟩ : ∃ a, s.field.reverse.head? = some a := by
        cases e : s.field.reverse.head? with
        | none => simp at e; exact absurd e hne
        | some a => exact ⟨a, rfl⟩
      rw [ha]
      have := hb a (List.mem_reverse.1 (List.mem_of_mem_head? ha))
      rcases this with rfl | rfl <;> simp
  · simp only [Csv.step, hm]
    unfold Csv.fieldChar
    split
    · exact .inl (h.endLine hl _ (.inl rfl))
    rename_i h1
    split
    · exact .inl (h.endLine hl _ (.inr rfl))
    rename_i h2
    split
    · rw [Csv.used_comma]
      exact .inr le_rfl
    rename_i h5
    obtain ⟨l1, ⟨b, hb, hb'⟩, l3⟩ := hl
    refine .inl ⟨h.records, h.record, .inr (.inr (.inr ⟨rfl, ?_, ⟨b, ?_, hb'⟩, ?_⟩))⟩
    · intro d hd
      simp only [List.reverse_cons, List.mem_append, List.mem_singleton] at hd
      rcases hd with hd | rfl
      · exact l1 d hd
      · exact ⟨h1, h2, h5⟩
    · rw [List.reverse_cons]
      exact List.mem_append_left _ hb
    · simp only [List.reverse_cons]
      rw [List.head?_append]
      obtain ⟨a, ha⟩ : ∃ a, s.field.reverse.head? = some a := by
        cases e : s.field.reverse.head? with
        | none => rw [List.head?_eq_none_iff.1 e] at hb; simp at hb
        | some a => exact ⟨a, rfl⟩
      rw [ha] at l3 ⊢
      simpa using l3

/-- The number of characters accounted for never exceeds the number of characters read, and if they
agree every line was taken literally. -/
theorem Csv.used_foldl (text : List Char) : ∀ (s : Csv) (n : ℕ), (s.used < n ∨ s.used = n ∧ s.Clean) →
    (text.foldl Csv.step s).used < n + text.length ∨
      (text.foldl Csv.step s).used = n + text.length ∧ (text.foldl Csv.step s).Clean := by
  induction text with
  | nil => intro s n h; simpa using h
  | cons c cs ih =>
    intro s n h
    have : (s.step c).used < n + 1 ∨ (s.step c).used = n + 1 ∧ (s.step c).Clean := by
      have hle := Csv.used_step s c
      rcases h with h | ⟨h, hc⟩
      · left
        omega
      · rcases hc.step c with h' | h'
        · rcases Nat.lt_or_ge (s.step c).used (n + 1) with h2 | h2
          · exact .inl h2
          · exact .inr ⟨by omega, h'⟩
        · left
          omega
    have := ih _ _ this
    rw [List.foldl_cons, List.length_cons]
    rw [show n + (cs.length + 1) = n + 1 + cs.length by omega]
    exact this

theorem Csv.newline_mode (s : Csv) :
    (s.step '\n').mode = .startRecord ∨ (s.step '\n').mode = .inQuoted := by
  unfold Csv.step
  split <;> simp_all [Csv.recordChar, Csv.startChar, Csv.fieldChar, Csv.endLine]

theorem writeList_length (paths : List (List Char)) :
    (writeList paths).length = (paths.map fun p => p.length + 1).sum := by
  induction paths with
  | nil => rfl
  | cons p ps ih =>
    simp [writeList] at ih ⊢
    omega

theorem writeList_ends {paths : List (List Char)} (h : paths ≠ []) :
    ∃ t, writeList paths = t ++ ['\n'] := by
  obtain ⟨l, p, rfl⟩ : ∃ l p, paths = l ++ [p] :=
    ⟨_, _, (List.dropLast_append_getLast h).symm⟩
  exact ⟨writeList l ++ p, by simp [writeList]⟩

/-- **C61, exactly:** a list of paths comes back from the file iff it is not empty and every path is
plain. -/
theorem C61_round_trip_iff (paths : List (List Char)) :
    getFilesList (some (writeList paths)) = .ok (paths.map some) ↔
      paths ≠ [] ∧ ∀ p ∈ paths, PlainPath p := by
  constructor
  swap
  · rintro ⟨h1, h2⟩
    exact C61_plain_partial paths h1 h2
  intro h
  have hne : paths ≠ [] := by
    rintro rfl
    rw [C61_empty_fails] at h
    cases h
  refine ⟨hne, ?_⟩
  simp only [getFilesList] at h
  cases hr : csvRecords (writeList paths) with
  | error e => rw [hr] at h; cases h
  | ok R =>
    rw [hr] at h
    simp only at h
    have hw : ∀ rs, checkWidth R = .ok rs → rs = R := by
      intro rs hrs
      cases R with
      | nil => cases hrs
      | cons r rest =>
        simp only [checkWidth] at hrs
        split at hrs
        · exact (Except.ok.inj hrs).symm
        · cases hrs
    cases hc : checkWidth R with
    | error e => rw [hc] at h; cases h
    | ok rs =>
      rw [hc] at h
      obtain rfl := hw rs hc
      simp only [Except.ok.injEq] at h
      -- every first field is the path, and none is a missing value
      have hcell : ∀ s q : List Char, cell s = some q → s = q ∧ q ∉ missingValues := by
        intro s q hs
        unfold cell at hs
        split at hs
        · cases hs
        · rename_i hn
          obtain rfl := Option.some.inj hs
          exact ⟨rfl, hn⟩
      have hboth : ∀ (R : List (List (List Char))) (ps : List (List Char)),
          R.map (fun r => cell (r.headD [])) = ps.map some →
          R.map (fun r => r.headD []) = ps ∧ ∀ p ∈ ps, p ∉ missingValues := by
        intro R
        induction R with
        | nil =>
          intro ps hps
          cases ps with
          | nil => simp
          | cons p ps => simp at hps
        | cons r R ih =>
          intro ps hps
          cases ps with
          | nil => simp at hps
          | cons p ps =>
            simp only [List.map_cons, List.cons.injEq] at hps
            obtain ⟨e1, e2⟩ := hcell _ _ hps.1
            obtain ⟨e3, e4⟩ := ih ps hps.2
            refine ⟨by rw [List.map_cons, e1, e3], ?_⟩
            intro q hq
            rcases List.mem_cons.1 hq with rfl | hq
            · exact e2
            · exact e4 q hq
      obtain ⟨hpaths, hmiss⟩ := hboth _ _ h
      -- the final state
      set s0 : Csv := ⟨.startRecord, [], [], []⟩ with hs0
      have h0 : s0.used < 0 ∨ s0.used = 0 ∧ s0.Clean :=
        .inr ⟨rfl, by simp [hs0], rfl, .inl ⟨rfl, rfl⟩⟩
      have hfold := Csv.used_foldl (writeList paths) s0 0 h0
      obtain ⟨t, ht⟩ := writeList_ends hne
      have hmode := Csv.newline_mode (t.foldl Csv.step s0)
      have hlast : (writeList paths).foldl Csv.step s0 = (t.foldl Csv.step s0).step '\n' := by
        rw [ht, List.foldl_append]
        rfl
      unfold csvRecords at hr
      rw [← hs0, hlast] at hr
      rw [hlast] at hfold
      rcases hmode with hm | hm
      · simp only [Csv.finish, hm, Except.ok.injEq] at hr
        set s1 := (t.foldl Csv.step s0).step '\n' with hs1
        have hsum : (s1.records.map fun r => (r.headD []).length + 1).sum =
            (writeList paths).length := by
          rw [writeList_length, ← hpaths, ← hr, List.map_map, List.map_reverse, List.sum_reverse]
          rfl
        have hused : (writeList paths).length ≤ s1.used := by
          unfold Csv.used
          omega
        rcases hfold with hf | ⟨-, hclean⟩
        · omega
        · intro p hp
          rw [← hpaths, ← hr] at hp
          simp only [List.mem_map, List.mem_reverse] at hp
          obtain ⟨r, hr1, rfl⟩ := hp
          obtain ⟨q, rfl, hq⟩ := hclean.records r hr1
          refine ⟨hq.1, hq.2.1, hq.2.2, hmiss _ ?_⟩
          rw [← hpaths, ← hr]
          exact List.mem_map.2 ⟨_, List.mem_reverse.2 hr1, rfl⟩
      · simp [Csv.finish, hm] at hr

-- a list with an unusual but plain path, and one with a path that is not plain
example : getFilesList (some (writeList ["a b".toList, " \"x".toList])) =
    .ok (["a b".toList, " \"x".toList].map some) :=
  (C61_round_trip_iff _).2 ⟨by simp, by
    intro p hp
    simp only [List.mem_cons, List.not_mem_nil, or_false] at hp
    rcases hp with rfl | rfl
    · exact ⟨by decide, by decide, by decide, by decide +kernel⟩
    · exact ⟨by decide, by decide, by decide, by decide +kernel⟩⟩

example : getFilesList (some (writeList ["a".toList, "\"b\"".toList])) ≠
    .ok (["a".toList, "\"b\"".toList].map some) := by
  rw [ne_eq, C61_round_trip_iff]
  rintro ⟨-, h⟩
  exact (h "\"b\"".toList (by simp)).noQuote (by decide)

end Verif
