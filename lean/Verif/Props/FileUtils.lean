import Verif.Lemmas.FileUtils
import Verif.Spec.Wildcards
import Mathlib.Tactic.IntervalCases

/-!
# C61, C62: file lists and file discovery
-/

namespace Verif

/-! ## C61 -/

/-- A path whose line the reader takes literally: no line break, no comma, no leading quote, not
blank, and not one of the strings standing for a missing value. -/
structure PlainPath (p : List Char) : Prop where
  chars : ∀ c ∈ p, c ≠ '\n' ∧ c ≠ '\r' ∧ c ≠ ','
  notBlank : ∃ c ∈ p, c ≠ ' ' ∧ c ≠ '\t'
  noQuote : p.head? ≠ some '"'
  notMissing : p ∉ missingValues

theorem tokenize_lines (ls : List (List Char))
    (h : ∀ p ∈ ls, (∀ c ∈ p, c ≠ '\n' ∧ c ≠ '\r' ∧ c ≠ ',') ∧ (∃ c ∈ p, c ≠ ' ' ∧ c ≠ '\t') ∧
      p.head? ≠ some '"') (records : List (List (List Char))) :
    (writeList ls).foldl Csv.step ⟨.startRecord, [], [], records⟩ =
      ⟨.startRecord, [], [], (ls.map fun p => [p]).reverse ++ records⟩ := by
  induction ls generalizing records with
  | nil => rfl
  | cons p ps ih =>
    obtain ⟨h1, h2, h3⟩ := h p (by simp)
    have : writeList (p :: ps) = p ++ '\n' :: writeList ps := by simp [writeList]
    rw [this, List.foldl_append, Csv.run_start p h1 h2 h3, List.foldl_cons]
    have : Csv.step ⟨.inField, p.reverse, [], records⟩ '\n' =
        ⟨.startRecord, [], [], [p] :: records⟩ := by
      simp [Csv.step, Csv.fieldChar, Csv.endField, Csv.endLine]
    rw [this, ih (fun q hq => h q (by simp [hq]))]
    simp

/-- **C61** for plain paths: every non-empty list of plain paths survives the round trip.

Partial: it does not survive for other paths, see the theorems below. -/
theorem C61_plain_partial (paths : List (List Char)) (hne : paths ≠ [])
    (h : ∀ p ∈ paths, PlainPath p) :
    getFilesList (some (writeList paths)) = .ok (paths.map some) := by
  have hrec : csvRecords (writeList paths) = .ok (paths.map fun p => [p]) := by
    unfold csvRecords
    rw [tokenize_lines paths (fun p hp => ⟨(h p hp).chars, (h p hp).notBlank, (h p hp).noQuote⟩)]
    simp [Csv.finish]
  cases paths with
  | nil => exact absurd rfl hne
  | cons p ps =>
    have hw : checkWidth ((p :: ps).map fun p => [p]) = .ok ((p :: ps).map fun p => [p]) := by
      simp [checkWidth]
    simp only [getFilesList, hrec, hw, List.map_map, Except.ok.injEq, List.map_inj_left,
      Function.comp]
    intro q hq
    simp [cell, (h q hq).notMissing]

/-- **C61 is false** for paths with a comma: a list of one such path comes back cut at the first
comma, without an error. -/
theorem C61_comma_fails (a b : List Char) (ha : PlainPath a)
    (hb : ∀ c ∈ b, c ≠ '\n' ∧ c ≠ '\r' ∧ c ≠ ',' ∧ c ≠ '"') :
    getFilesList (some (writeList [a ++ ',' :: b])) = .ok [some a] := by
  have hrec : csvRecords (writeList [a ++ ',' :: b]) = .ok [[a, b]] := by
    have : writeList [a ++ ',' :: b] = a ++ (',' :: (b ++ ['\n'])) := by simp [writeList]
    unfold csvRecords
    rw [this, List.foldl_append, Csv.run_start a ha.chars ha.notBlank ha.noQuote, List.foldl_cons]
    have : Csv.step ⟨.inField, a.reverse, [], []⟩ ',' = ⟨.startField, [], [a], []⟩ := by
      simp [Csv.step, Csv.fieldChar, Csv.endField]
    rw [this]
    cases b with
    | nil => simp [Csv.step, Csv.startChar, Csv.fieldChar, Csv.endField, Csv.endLine, Csv.finish]
    | cons c cs =>
      have hc := hb c (by simp)
      have h1 : Csv.step ⟨.startField, [], [a], []⟩ c = ⟨.inField, [c], [a], []⟩ := by
        simp [Csv.step, Csv.startChar, Csv.fieldChar, hc.1, hc.2.1, hc.2.2.1, hc.2.2.2]
      rw [List.cons_append, List.foldl_cons, h1, List.foldl_append,
        Csv.run_inField cs (fun x hx =>
          ⟨(hb x (by simp [hx])).1, (hb x (by simp [hx])).2.1, (hb x (by simp [hx])).2.2.1⟩) _ rfl]
      simp [Csv.step, Csv.fieldChar, Csv.endField, Csv.endLine, Csv.finish]
  simp only [getFilesList, hrec, checkWidth]
  simp [cell, ha.notMissing]

/-- **C61 is false**: a plain path followed by one with a comma makes the list unreadable. -/
theorem C61_ragged_fails (p a b : List Char) (hp : PlainPath p) (ha : PlainPath a)
    (hb : ∀ c ∈ b, c ≠ '\n' ∧ c ≠ '\r' ∧ c ≠ ',' ∧ c ≠ '"') :
    getFilesList (some (writeList [p, a ++ ',' :: b])) = .error .parserError := by
  have hrec : csvRecords (writeList [p, a ++ ',' :: b]) = .ok [[p], [a, b]] := by
    have : writeList [p, a ++ ',' :: b] = writeList [p] ++ (a ++ (',' :: (b ++ ['\n']))) := by
      simp [writeList]
    unfold csvRecords
    rw [this, List.foldl_append, tokenize_lines [p] (by
      intro q hq; obtain rfl : q = p := by simpa using hq
      exact ⟨hp.chars, hp.notBlank, hp.noQuote⟩),
      List.foldl_append, Csv.run_start a ha.chars ha.notBlank ha.noQuote, List.foldl_cons]
    have : Csv.step ⟨.inField, a.reverse, [], ([p].map fun p => [p]).reverse ++ []⟩ ',' =
        ⟨.startField, [], [a], [[p]]⟩ := by
      simp [Csv.step, Csv.fieldChar, Csv.endField]
    rw [this]
    cases b with
    | nil => simp [Csv.step, Csv.startChar, Csv.fieldChar, Csv.endField, Csv.endLine, Csv.finish]
    | cons c cs =>
      have hc := hb c (by simp)
      have h1 : Csv.step ⟨.startField, [], [a], [[p]]⟩ c = ⟨.inField, [c], [a], [[p]]⟩ := by
        simp [Csv.step, Csv.startChar, Csv.fieldChar, hc.1, hc.2.1, hc.2.2.1, hc.2.2.2]
      rw [List.cons_append, List.foldl_cons, h1, List.foldl_append,
        Csv.run_inField cs (fun x hx =>
          ⟨(hb x (by simp [hx])).1, (hb x (by simp [hx])).2.1, (hb x (by simp [hx])).2.2.1⟩) _ rfl]
      simp [Csv.step, Csv.fieldChar, Csv.endField, Csv.endLine, Csv.finish]
  simp only [getFilesList, hrec, checkWidth]
  simp

/-- **C61 is false** for the relative paths standing for missing values (`NA`, `null`, `None`,
...): they come back as `NaN`, which is not a string. -/
theorem C61_missing_fails (p : List Char) (hp : p ∈ missingValues) (hne : p ≠ []) :
    getFilesList (some (writeList [p])) = .ok [none] := by
  have key : ∀ q ∈ missingValues, q ≠ [] → (∀ c ∈ q, c ≠ '\n' ∧ c ≠ '\r' ∧ c ≠ ',') ∧
      (∃ c ∈ q, c ≠ ' ' ∧ c ≠ '\t') ∧ q.head? ≠ some '"' := by decide +kernel
  have hrec : csvRecords (writeList [p]) = .ok [[p]] := by
    unfold csvRecords
    rw [tokenize_lines [p] (by
      intro q hq; obtain rfl : q = p := by simpa using hq
      exact key q hp hne)]
    simp [Csv.finish]
  simp [getFilesList, hrec, checkWidth, cell, hp]

/-- A blank path vanishes from a list of plain paths. -/
theorem C61_blank_fails (p q : List Char) (hp : PlainPath p) (hq : ∀ c ∈ q, c = ' ' ∨ c = '\t') :
    getFilesList (some (writeList [p, q])) = .ok [some p] := by
  have hblank : ∀ (l : List Char) (f : List Char) (rs : List (List (List Char))),
      (∀ c ∈ l, c = ' ' ∨ c = '\t') →
      (l ++ ['\n']).foldl Csv.step ⟨.blankLine, f, [], rs⟩ = ⟨.startRecord, [], [], rs⟩ := by
    intro l
    induction l with
    | nil => intro f rs _; simp [Csv.step]
    | cons c cs ih =>
      intro f rs h
      have hc := h c (by simp)
      have h1 : Csv.step ⟨.blankLine, f, [], rs⟩ c = ⟨.blankLine, c :: f, [], rs⟩ := by
        rcases hc with rfl | rfl <;> simp [Csv.step]
      rw [List.cons_append, List.foldl_cons, h1]
      exact ih _ _ fun x hx => h x (by simp [hx])
  have hrec : csvRecords (writeList [p, q]) = .ok [[p]] := by
    have : writeList [p, q] = writeList [p] ++ (q ++ ['\n']) := by simp [writeList]
    unfold csvRecords
    rw [this, List.foldl_append, tokenize_lines [p] (by
      intro q hq; obtain rfl : q = p := by simpa using hq
      exact ⟨hp.chars, hp.notBlank, hp.noQuote⟩)]
    cases q with
    | nil => simp [Csv.step, Csv.recordChar, Csv.finish]
    | cons c cs =>
      have hc := hq c (by simp)
      have h1 : Csv.step ⟨.startRecord, [], [], ([p].map fun p => [p]).reverse ++ []⟩ c =
          ⟨.blankLine, [c], [], [[p]]⟩ := by
        rcases hc with rfl | rfl <;> simp [Csv.step, Csv.recordChar]
      rw [List.cons_append, List.foldl_cons, h1, hblank _ _ _ fun x hx => hq x (by simp [hx])]
      simp [Csv.finish]
  simp [getFilesList, hrec, checkWidth, cell, hp.notMissing]

/-- The empty list is written as an empty file, which cannot be read. -/
theorem C61_empty_fails : getFilesList (some (writeList [])) = .error .emptyDataError := rfl

/-- A missing file raises `FileNotFoundError`. -/
theorem C61_no_file : getFilesList none = .error .fileNotFoundError := rfl

/-! ## C62 -/

/-- The patterns of the property: not empty, no wildcard characters, no path separator. -/
structure PlainPattern (pattern : List Char) : Prop where
  nonempty : pattern ≠ []
  chars : ∀ c ∈ pattern, c ≠ '*' ∧ c ≠ '?' ∧ c ≠ '[' ∧ c ≠ '/'

theorem PlainPattern.glob_iff {pattern : List Char} (hp : PlainPattern pattern)
    (s : List Char) : glob ('*' :: (pattern ++ ['*'])) s = true ↔ pattern <:+: s :=
  glob_contains pattern (fun c hc => ⟨(hp.chars c hc).1, (hp.chars c hc).2.1⟩) s

/-- **C62** (content and order).  For a pattern without wildcard characters the result is sorted
and consists, with multiplicity, of exactly the entries whose name contains the pattern. -/
theorem C62_sorted_exact (entries : Listing) (pattern : List Char)
    (hp : PlainPattern pattern) :
    (findFiles entries pattern).Pairwise (fun a b => strLe a b = true) ∧
    (findFiles entries pattern).Perm
      ((entries.filter fun e => decide (pattern <:+: e.2)).map (·.1)) := by
  constructor
  · exact List.pairwise_mergeSort (fun a b c => strLe_trans a b c) strLe_total _
  · refine (List.mergeSort_perm _ _).trans ?_
    have : (fun e : List Char × List Char => glob ('*' :: (pattern ++ ['*'])) e.2) =
        fun e => decide (pattern <:+: e.2) := by
      funext e
      rw [Bool.eq_iff_iff, decide_eq_true_iff]
      exact hp.glob_iff e.2
    rw [this]

theorem glob_iff_matches (p s : List Char) : glob p s = true ↔ Matches p s := by
  induction p generalizing s with
  | nil =>
    cases s with
    | nil => exact ⟨fun _ => .nil, fun _ => rfl⟩
    | cons c s => exact ⟨fun h => by simp [glob] at h, fun h => by cases h⟩
  | cons a p ih =>
    by_cases ha : a = '*'
    · subst ha
      simp only [glob, if_true, List.any_eq_true, List.mem_tails, ih]
      constructor
      · rintro ⟨t, ⟨u, rfl⟩, h⟩
        exact .star u h
      · intro h
        cases h with
        | star u h => exact ⟨_, ⟨u, rfl⟩, h⟩
        | same h => exact absurd rfl h
    · cases s with
      | nil =>
        simp only [glob, ha, if_false]
        refine ⟨fun h => by simp at h, fun h => ?_⟩
        generalize hs : ([] : List Char) = s at h
        cases h with
        | star u h => exact absurd rfl ha
        | any c h => cases hs
        | same _ _ h => cases hs
      | cons c s =>
        simp only [glob, ha, if_false, Bool.and_eq_true, Bool.or_eq_true, decide_eq_true_eq, ih]
        constructor
        · rintro ⟨rfl | rfl, h⟩
          · exact .any c h
          · by_cases hq : a = '?'
            · subst hq; exact .any _ h
            · exact .same ha hq h
        · intro h
          generalize hs : c :: s = t at h
          cases h with
          | star u h => exact absurd rfl ha
          | any d h => cases hs; exact ⟨.inl rfl, h⟩
          | same _ _ h => cases hs; exact ⟨.inr rfl, h⟩

theorem Matches.append {p q s t : List Char} (h : Matches p s) (h' : Matches q t) :
    Matches (p ++ q) (s ++ t) := by
  induction h with
  | nil => exact h'
  | star u _ ih => rw [List.append_assoc]; exact .star u ih
  | any c _ ih => exact .any c ih
  | same h1 h2 _ ih => exact .same h1 h2 ih

theorem Matches.split {p q s : List Char} (h : Matches (p ++ q) s) :
    ∃ a b, s = a ++ b ∧ Matches p a ∧ Matches q b := by
  induction p generalizing s with
  | nil => exact ⟨[], s, rfl, .nil, h⟩
  | cons c p ih =>
    rw [List.cons_append] at h
    cases h with
    | star u h =>
      obtain ⟨a, b, rfl, h1, h2⟩ := ih h
      exact ⟨u ++ a, b, by simp, .star u h1, h2⟩
    | any d h =>
      obtain ⟨a, b, rfl, h1, h2⟩ := ih h
      exact ⟨d :: a, b, rfl, .any d h1, h2⟩
    | same k1 k2 h =>
      obtain ⟨a, b, rfl, h1, h2⟩ := ih h
      exact ⟨c :: a, b, rfl, .same k1 k2 h1, h2⟩

/-- **C62** (wildcards).  A pattern with `*` and `?` is looked for inside the names: the entries found
are, with multiplicity, those whose name contains a piece of text the pattern stands for. -/
theorem C62_wildcards (entries : Listing) (pattern : List Char) (_h0 : pattern ≠ [])
    (_hc : '[' ∉ pattern ∧ '/' ∉ pattern) [DecidablePred fun e : List Char × List Char =>
      ∃ u m v, e.2 = u ++ m ++ v ∧ Matches pattern m] :
    (findFiles entries pattern).Pairwise (fun a b => strLe a b = true) ∧
    (findFiles entries pattern).Perm
      ((entries.filter fun e => decide (∃ u m v, e.2 = u ++ m ++ v ∧ Matches pattern m)).map (·.1)) := by
  constructor
  · exact List.pairwise_mergeSort (fun a b c => strLe_trans a b c) strLe_total _
  · refine (List.mergeSort_perm _ _).trans ?_
    have : (fun e : List Char × List Char => glob ('*' :: (pattern ++ ['*'])) e.2) =
        fun e => decide (∃ u m v, e.2 = u ++ m ++ v ∧ Matches pattern m) := by
      funext e
      rw [Bool.eq_iff_iff, decide_eq_true_iff, glob_iff_matches]
      constructor
      · intro h
        generalize hs : e.2 = s at h
        cases h with
        | star u h =>
          obtain ⟨m, v, rfl, h1, -⟩ := h.split
          exact ⟨u, m, v, by simp, h1⟩
        | same h => exact absurd rfl h
      · rintro ⟨u, m, v, e1, h⟩
        rw [e1, List.append_assoc]
        refine .star u (h.append ?_)
        have := Matches.star v .nil
        rwa [List.append_nil] at this
    rw [this]

/-- `v?1*t` is found in `av01.mat`. -/
example : ∃ u m v, "av01.mat".toList = u ++ m ++ v ∧ Matches "v?1*t".toList m :=
  ⟨"a".toList, "v01.mat".toList, [], rfl, .same (by decide) (by decide) (.any '0' (.same (by decide) (by decide)
    (.star ".ma".toList (.same (by decide) (by decide) .nil))))⟩

/-- **C62** (independence).  The result does not depend on the order in which the file system
lists the entries. -/
theorem C62_order_independent (e₁ e₂ : Listing) (pattern : List Char) (h : e₁.Perm e₂) :
    findFiles e₁ pattern = findFiles e₂ pattern := by
  refine List.Perm.eq_of_pairwise (le := fun a b => strLe a b = true) ?_ ?_ ?_ ?_
  · intro a b _ _ h1 h2; exact strLe_antisymm a b h1 h2
  · exact List.pairwise_mergeSort (fun a b c => strLe_trans a b c) strLe_total _
  · exact List.pairwise_mergeSort (fun a b c => strLe_trans a b c) strLe_total _
  · exact (List.mergeSort_perm _ _).trans
      (((h.filter _).map _).trans (List.mergeSort_perm _ _).symm)

/-- The `w`-digit decimal notation of `i` (modulo `10 ^ w`), most significant digit first. -/
def padded : ℕ → ℕ → List Char
  | 0, _ => []
  | w + 1, i => Nat.digitChar (i / 10 ^ w % 10) :: padded w i

theorem digitChar_toNat {d : ℕ} (h : d < 10) : (Nat.digitChar d).toNat = 48 + d := by
  interval_cases d <;> rfl

theorem strLe_padded (w i j : ℕ) (s : List Char) :
    strLe (padded w i ++ s) (padded w j ++ s) = decide (i % 10 ^ w ≤ j % 10 ^ w) := by
  induction w with
  | zero => simp [padded, strLe_refl, Nat.mod_one]
  | succ w ih =>
    have hi : i % 10 ^ (w + 1) = 10 ^ w * (i / 10 ^ w % 10) + i % 10 ^ w := by
      rw [pow_succ, Nat.mod_mul, Nat.add_comm]
    have hj : j % 10 ^ (w + 1) = 10 ^ w * (j / 10 ^ w % 10) + j % 10 ^ w := by
      rw [pow_succ, Nat.mod_mul, Nat.add_comm]
    have h10 : 0 < 10 ^ w := Nat.pow_pos (by decide)
    have hli := Nat.mod_lt i h10
    have hlj := Nat.mod_lt j h10
    have ha : i / 10 ^ w % 10 < 10 := Nat.mod_lt _ (by decide)
    have hb : j / 10 ^ w % 10 < 10 := Nat.mod_lt _ (by decide)
    rw [hi, hj]
    simp only [padded, List.cons_append, strLe, ih]
    generalize i / 10 ^ w % 10 = a at *
    generalize j / 10 ^ w % 10 = b at *
    generalize i % 10 ^ w = x at *
    generalize j % 10 ^ w = y at *
    generalize 10 ^ w = P at *
    by_cases hab : a = b
    · subst hab
      simp
    · have hne : Nat.digitChar a ≠ Nat.digitChar b := by
        intro h
        have := congrArg Char.toNat h
        rw [digitChar_toNat ha, digitChar_toNat hb] at this
        omega
      rw [if_neg hne, digitChar_toNat ha, digitChar_toNat hb]
      rw [Bool.eq_iff_iff, decide_eq_true_iff, decide_eq_true_iff]
      rcases Nat.lt_or_gt_of_ne hab with h | h
      · have : P * a + P ≤ P * b := by
          rw [← Nat.mul_succ]; exact Nat.mul_le_mul_left _ h
        constructor
        · intro _; omega
        · intro _; omega
      · have : P * b + P ≤ P * a := by
          rw [← Nat.mul_succ]; exact Nat.mul_le_mul_left _ h
        constructor
        · intro _; omega
        · intro _; omega

/-- **C62** (time order).  If the matching entries are exactly the files
`dir/stem` + `w`-digit index + `suffix` for the indices in `indices` (in any order, each below
`10 ^ w`), the result lists them by increasing index. -/
theorem C62_time_order (entries : Listing) (pattern stem suffix : List Char) (w : ℕ)
    (indices : List ℕ) (hw : ∀ i ∈ indices, i < 10 ^ w)
    (hp : PlainPattern pattern)
    (hm : ((entries.filter fun e => decide (pattern <:+: e.2)).map (·.1)).Perm
      (indices.map fun i => stem ++ padded w i ++ suffix)) :
    findFiles entries pattern =
      (indices.mergeSort (fun a b => decide (a ≤ b))).map fun i => stem ++ padded w i ++ suffix := by
  refine List.Perm.eq_of_pairwise (le := fun a b => strLe a b = true) ?_ ?_ ?_ ?_
  · intro a b _ _ h1 h2; exact strLe_antisymm a b h1 h2
  · exact List.pairwise_mergeSort (fun a b c => strLe_trans a b c) strLe_total _
  · rw [List.pairwise_map]
    have hs : (indices.mergeSort (fun a b => decide (a ≤ b))).Pairwise
        (fun a b => decide (a ≤ b) = true) :=
      List.pairwise_mergeSort (by intro a b c; simp; omega) (by intro a b; simp; omega) _
    refine List.Pairwise.imp_of_mem ?_ hs
    intro a b ha hb hab
    have ha' := hw a ((List.mergeSort_perm _ _).mem_iff.1 ha)
    have hb' := hw b ((List.mergeSort_perm _ _).mem_iff.1 hb)
    rw [List.append_assoc, List.append_assoc, strLe_append_left, strLe_padded,
      Nat.mod_eq_of_lt ha', Nat.mod_eq_of_lt hb']
    exact hab
  · exact (C62_sorted_exact entries pattern hp).2.trans (hm.trans ((List.mergeSort_perm _ _).map _).symm)

/-- Without zero padding the order is not the time order: index 10 is listed before index 9,
whatever the common stem and suffix. -/
theorem C62_unpadded (stem suffix : List Char) :
    strLe (stem ++ ("10".toList ++ suffix)) (stem ++ ("9".toList ++ suffix)) = true ∧
    strLe (stem ++ ("9".toList ++ suffix)) (stem ++ ("10".toList ++ suffix)) = false := by
  rw [strLe_append_left, strLe_append_left]
  simp [strLe]

/-! ## Concrete cases -/

theorem exPlain : PlainPath "data/velocities 01.mat".toList where
  chars := by decide
  notBlank := by decide
  noQuote := by decide
  notMissing := by decide +kernel

example : getFilesList (some (writeList ["data/velocities 01.mat".toList])) =
    .ok [some "data/velocities 01.mat".toList] :=
  C61_plain_partial _ (by simp) (by intro p hp; obtain rfl : p = _ := by simpa using hp
                                    exact exPlain)

example : getFilesList (some (writeList ["data/velocities 01.mat".toList ++ ',' :: "b".toList])) =
    .ok [some "data/velocities 01.mat".toList] :=
  C61_comma_fails _ _ exPlain (by decide)

example : getFilesList (some (writeList ["null".toList])) = .ok [none] :=
  C61_missing_fails _ (by decide +kernel) (by decide)

/-- A path in quotes loses them. -/
example : getFilesList (some (writeList ["\"a\"".toList])) = .ok [some "a".toList] := by
  decide +kernel

/-- Two files and a directory, listed out of order. -/
def exListing : Listing :=
  [("d/v02.mat".toList, "v02.mat".toList), ("d/x".toList, "x".toList),
    ("d/v01.mat".toList, "v01.mat".toList)]

example : findFiles exListing ".mat".toList = ["d/v01.mat".toList, "d/v02.mat".toList] := by
  rw [C62_time_order exListing ".mat".toList "d/v".toList ".mat".toList 2 [2, 1] (by decide)
    ⟨by decide, by decide⟩ (by decide +kernel)]
  simp [List.mergeSort, List.MergeSort.Internal.splitInTwo, padded]

end Verif
