import Verif.Props.FileUtils

/-!
# C81: hand-written file lists
-/

namespace Verif

/-- A line end, possibly followed by empty lines: any mixture of `\n` and `\r`. -/
def IsLineEnd (s : List Char) : Prop := s ≠ [] ∧ ∀ c ∈ s, c = '\n' ∨ c = '\r'

/-- A text: lines, each with its line end. -/
def textOf (lines : List (List Char × List Char)) : List Char := lines.flatMap fun l => l.1 ++ l.2

theorem Csv.run_lineEnd (s : List Char) (hs : ∀ c ∈ s, c = '\n' ∨ c = '\r') (m : Tok)
    (hm : m = .startRecord ∨ m = .afterCr) (rs : List (List (List Char))) :
    ∃ m', (m' = .startRecord ∨ m' = .afterCr) ∧
      s.foldl Csv.step ⟨m, [], [], rs⟩ = ⟨m', [], [], rs⟩ := by
  induction s generalizing m with
  | nil => exact ⟨m, hm, rfl⟩
  | cons c cs ih =>
    have hcs : ∀ c ∈ cs, c = '\n' ∨ c = '\r' := fun x hx => hs x (by simp [hx])
    rcases hs c (by simp) with rfl | rfl <;> rcases hm with rfl | rfl
    · obtain ⟨m', h1, h2⟩ := ih hcs .startRecord (.inl rfl)
      exact ⟨m', h1, by rw [← h2, List.foldl_cons]; rfl⟩
    · obtain ⟨m', h1, h2⟩ := ih hcs .startRecord (.inl rfl)
      exact ⟨m', h1, by rw [← h2, List.foldl_cons]; rfl⟩
    · obtain ⟨m', h1, h2⟩ := ih hcs .afterCr (.inr rfl)
      exact ⟨m', h1, by rw [← h2, List.foldl_cons]; rfl⟩
    · obtain ⟨m', h1, h2⟩ := ih hcs .afterCr (.inr rfl)
      exact ⟨m', h1, by rw [← h2, List.foldl_cons]; rfl⟩

theorem Csv.run_path {p : List Char} (hp : PlainPath p) (m : Tok)
    (hm : m = .startRecord ∨ m = .afterCr) (rs : List (List (List Char))) :
    p.foldl Csv.step ⟨m, [], [], rs⟩ = ⟨.inField, p.reverse, [], rs⟩ := by
  rw [← Csv.run_start p hp.chars hp.notBlank hp.noQuote]
  rcases hm with rfl | rfl
  · rfl
  · cases p with
    | nil =>
      obtain ⟨c, hc, -⟩ := hp.notBlank
      cases hc
    | cons c cs =>
      rw [List.foldl_cons, List.foldl_cons]
      congr 1
      have := (hp.chars c (by simp)).1
      simp [Csv.step, this, Csv.recordChar, Csv.startChar, Csv.fieldChar, Csv.endField,
        Csv.endLine]

theorem Csv.run_text (lines : List (List Char × List Char))
    (h : ∀ l ∈ lines, PlainPath l.1 ∧ IsLineEnd l.2) (m : Tok)
    (hm : m = .startRecord ∨ m = .afterCr) (rs : List (List (List Char))) :
    ∃ m', (m' = .startRecord ∨ m' = .afterCr) ∧ (textOf lines).foldl Csv.step ⟨m, [], [], rs⟩ =
      ⟨m', [], [], (lines.map fun l => [l.1]).reverse ++ rs⟩ := by
  induction lines generalizing m rs with
  | nil => exact ⟨m, hm, rfl⟩
  | cons l ls ih =>
    obtain ⟨p, s⟩ := l
    obtain ⟨hp, hne, hs⟩ := h (p, s) (by simp)
    simp only at hp hne hs
    obtain ⟨c, cs, rfl⟩ : ∃ c cs, s = c :: cs := by
      cases s with
      | nil => exact absurd rfl hne
      | cons c cs => exact ⟨c, cs, rfl⟩
    have h1 : ∃ m', (m' = .startRecord ∨ m' = .afterCr) ∧
        Csv.step ⟨.inField, p.reverse, [], rs⟩ c = ⟨m', [], [], [p] :: rs⟩ := by
      rcases hs c (by simp) with rfl | rfl
      · exact ⟨.startRecord, .inl rfl, by simp [Csv.step, Csv.fieldChar, Csv.endField, Csv.endLine]⟩
      · exact ⟨.afterCr, .inr rfl, by simp [Csv.step, Csv.fieldChar, Csv.endField, Csv.endLine]⟩
    obtain ⟨m1, hm1, e1⟩ := h1
    obtain ⟨m2, hm2, e2⟩ := Csv.run_lineEnd cs (fun x hx => hs x (by simp [hx])) m1 hm1 ([p] :: rs)
    obtain ⟨m3, hm3, e3⟩ := ih (fun l hl => h l (by simp [hl])) m2 hm2 ([p] :: rs)
    refine ⟨m3, hm3, ?_⟩
    have : textOf ((p, c :: cs) :: ls) = p ++ (c :: cs ++ textOf ls) := by simp [textOf]
    rw [this, List.foldl_append, Csv.run_path hp m hm, List.foldl_append, List.foldl_cons, e1, e2,
      e3]
    simp

theorem getFilesList_records {text : List Char} {paths : List (List Char)} (hne : paths ≠ [])
    (h : ∀ p ∈ paths, PlainPath p) (hrec : csvRecords text = .ok (paths.map fun p => [p])) :
    getFilesList (some text) = .ok (paths.map some) := by
  cases paths with
  | nil => exact absurd rfl hne
  | cons p ps =>
    have hw : checkWidth ((p :: ps).map fun p => [p]) = .ok ((p :: ps).map fun p => [p]) := by
      simp [checkWidth]
    simp only [getFilesList, hrec, hw, List.map_map, Except.ok.injEq, List.map_inj_left,
      Function.comp]
    intro q hq
    simp [cell, (h q hq).notMissing]

/-- **C81.**  A list written by hand is read line by line: line ends may be those of any system,
empty lines are skipped, in between as at the start and at the end, and the last line need not
be terminated. -/
theorem C81_line_ends (start : List Char) (hstart : ∀ c ∈ start, c = '\n' ∨ c = '\r')
    (lines : List (List Char × List Char)) (last : List Char)
    (h : ∀ l ∈ lines, PlainPath l.1 ∧ IsLineEnd l.2) (hl : PlainPath last) :
    getFilesList (some (start ++ textOf lines ++ last)) =
      .ok ((lines.map Prod.fst ++ [last]).map some) ∧
    (lines ≠ [] → getFilesList (some (start ++ textOf lines)) =
      .ok ((lines.map Prod.fst).map some)) := by
  obtain ⟨m, hm, e⟩ := Csv.run_lineEnd start hstart .startRecord (.inl rfl) []
  obtain ⟨m', hm', e'⟩ := Csv.run_text lines h m hm []
  refine ⟨getFilesList_records (by simp) ?_ ?_, fun hne => getFilesList_records (by simpa) ?_ ?_⟩
  · intro p hp
    simp only [List.mem_append, List.mem_map, List.mem_singleton] at hp
    rcases hp with ⟨l, hl', rfl⟩ | rfl
    · exact (h l hl').1
    · exact hl
  · unfold csvRecords
    rw [List.foldl_append, List.foldl_append, e, e', Csv.run_path hl m' hm']
    simp [Csv.finish, Csv.endField, Csv.endLine, Function.comp_def]
  · intro p hp
    obtain ⟨l, hl', rfl⟩ := List.mem_map.1 hp
    exact (h l hl').1
  · unfold csvRecords
    rw [List.foldl_append, e, e']
    rcases hm' with rfl | rfl <;> simp [Csv.finish, Function.comp_def]

/-- Two lines with Windows line ends and an empty line between them, the second not
terminated. -/
example : getFilesList (some ("data/velocities 01.mat\r\n\r\ndata/velocities 01.mat".toList)) =
    .ok [some "data/velocities 01.mat".toList, some "data/velocities 01.mat".toList] :=
  (C81_line_ends [] (by simp) [("data/velocities 01.mat".toList, "\r\n\r\n".toList)]
    "data/velocities 01.mat".toList (by
      intro l hl
      obtain rfl := List.mem_singleton.1 hl
      exact ⟨exPlain, by decide, by decide⟩) exPlain).1

end Verif
