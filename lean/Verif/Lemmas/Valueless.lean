import Verif.Lemmas.ConfigText
import Verif.Spec.Valueless

/-!
# Lemmas for C121: entries without a value
-/

namespace Verif

variable {cd : CharData}

theorem mem_lazily {s x y : Str} (h : (x, y) ∈ lazily s) : s = x ++ y := by
  induction s generalizing x y with
  | nil =>
    simp only [lazily, List.mem_singleton, Prod.mk.injEq] at h
    obtain ⟨rfl, rfl⟩ := h
    rfl
  | cons c s ih =>
    rcases List.mem_cons.1 h with h | h
    · cases h
      rfl
    · obtain ⟨⟨a, b⟩, hm, he⟩ := List.mem_map.1 h
      cases he
      rw [ih hm]
      rfl

theorem Key.keyChar {key : Str} (hk : Key cd.isSpace key) : ∀ c ∈ key, keyChar cd c = true := by
  intro d hd
  obtain ⟨k1, k2, k3, k4, k5⟩ := hk.chars d hd
  simp [Verif.keyChar, k1, k2, k3, k4, k5]

/-- The key of a line is read as a whole. -/
theorem lineMatch_first {key s : Str} (hk : Key cd.isSpace key)
    (hs : ∀ d ∈ s.head?, keyChar cd d = false) {m : Option Char × Option Str}
    (h : ((greedy cd.isSpace s).flatMap fun w => (equalMatches cd w.2).map fun m =>
      (key, m.1, m.2)).head? = some (key, m.1, m.2)) :
    lineMatch cd (key ++ s) = some (key, m.1, m.2) := by
  obtain ⟨l, hl⟩ := greedy_first (keyChar cd) key s hk.keyChar hs
  unfold lineMatch
  rw [hl, List.filter_cons_of_pos (by simpa using hk.nonempty)]
  exact head?_flatMap_cons _ _ _ h

/-- A key alone. -/
theorem lineMatch_alone {key : Str} (hk : Key cd.isSpace key) :
    lineMatch cd (key ++ []) = some (key, none, none) :=
  lineMatch_first hk (by simp) (m := (none, none)) (by simp [greedy, equalMatches, tailMatch])

theorem keyChar_sign {b : Str} {c : Char} (hb : Blank cd.isSpace b) (hc : c = ':' ∨ c = '=')
    (t : Str) : ∀ d ∈ (b ++ c :: t).head?, keyChar cd d = false := by
  intro d hd
  cases b with
  | nil =>
    have : d = c := by simpa using hd.symm
    rw [this]
    rcases hc with rfl | rfl <;> simp [keyChar]
  | cons y b =>
    have : d = y := by simpa using hd.symm
    rw [this]
    simp [keyChar, hb y (by simp)]

/-- A key and `:` or `=`: the rest decides. -/
theorem lineMatch_sign (hm : Marks cd.isSpace) {key b d t : Str} {c : Char}
    (hk : Key cd.isSpace key) (hb : Blank cd.isSpace b) (hc : c = ':' ∨ c = '=')
    (hd : Blank cd.isSpace d) (ht : ∀ x ∈ t.head?, cd.isSpace x = false) {v : Option Str}
    (hv : (quoteMatches cd t).head? = some v) :
    lineMatch cd (key ++ (b ++ c :: (d ++ t))) = some (key, some c, v) := by
  have hcs : cd.isSpace c = false := by rcases hc with rfl | rfl <;> exact hm _ (by decide)
  refine lineMatch_first hk (keyChar_sign hb hc _) (m := (some c, v)) ?_
  obtain ⟨l, hl⟩ := greedy_first cd.isSpace b (c :: (d ++ t)) hb (by
    intro x hx
    have : x = c := by simpa using hx.symm
    rw [this]
    exact hcs)
  rw [hl]
  apply head?_flatMap_cons
  refine head?_map_some (fun m : Option Char × Option Str => (key, m.1, m.2)) (x := (some c, v)) ?_
  unfold equalMatches
  apply head?_append_of_some
  simp only
  rw [if_pos (by rcases hc with rfl | rfl <;> simp)]
  obtain ⟨l', hl'⟩ := greedy_first cd.isSpace d t hd ht
  rw [hl']
  apply head?_flatMap_cons
  exact head?_map_some _ hv

/-- A key and blanks: the rest decides. -/
theorem lineMatch_blank {key b t : Str} {x c : Char}
    (hk : Key cd.isSpace key) (hb : Blank cd.isSpace b) (hx : cd.isSpace x = true)
    (h1 : cd.isSpace c = false) (h2 : c ≠ ':' ∧ c ≠ '=') {v : Option Str}
    (hv : (quoteMatches cd (c :: t)).head? = some v) :
    lineMatch cd (key ++ (b ++ x :: c :: t)) = some (key, some x, v) := by
  have hc : ∀ d ∈ (c :: t).head?, cd.isSpace d = false := by
    intro d hd
    have : d = c := by simpa using hd.symm
    rw [this]
    exact h1
  refine lineMatch_first hk ?_ (m := (some x, v)) ?_
  · intro d hd
    have : cd.isSpace d = true := by
      cases b with
      | nil =>
        have : d = x := by simpa using hd.symm
        rw [this]
        exact hx
      | cons y b =>
        have : d = y := by simpa using hd.symm
        rw [this]
        exact hb y (by simp)
    simp [keyChar, this]
  · obtain ⟨l, hl⟩ := greedy_second cd.isSpace b (c :: t) x hb hx hc
    rw [hl, List.flatMap_cons]
    have hempty : equalMatches cd (c :: t) = [] := by
      have ht : tailMatch cd (c :: t) = false := by
        simp [tailMatch, List.dropWhile_cons_of_neg, h1]
      unfold equalMatches
      simp [h1, h2.1, h2.2, ht]
    simp only [hempty, List.map_nil, List.nil_append]
    apply head?_flatMap_cons
    refine head?_map_some (fun m : Option Char × Option Str => (key, m.1, m.2))
      (x := (some x, v)) ?_
    unfold equalMatches
    apply head?_append_of_some
    simp only
    rw [if_pos (by simp [hx]), greedy_stop _ _ hc]
    apply head?_flatMap_cons
    exact head?_map_some _ hv

theorem quoteMatches_nil : (quoteMatches cd []).head? = some none := by
  simp [quoteMatches, valueMatches, lazily, tailMatch]

/-- Empty quotes. -/
theorem quoteMatches_quotes (hm : Marks cd.isSpace) {q : Char} {r : Str} (hq : q = '\'' ∨ q = '"')
    (hn : q ∉ r) (hr : Remark cd.isSpace r) : (quoteMatches cd (q :: q :: r)).head? = some none := by
  have ht := tailMatch_remark hm hr
  unfold quoteMatches
  apply head?_append_of_some
  rw [if_pos (by simpa using hq)]
  unfold valueMatches
  have hnone : (lazily (q :: r)).filter (fun p => p.1 ≠ [] && [q].isPrefixOf p.2 &&
      tailMatch cd (p.2.drop [q].length)) = [] := by
    rw [List.filter_eq_nil_iff]
    rintro ⟨x, y⟩ hxy hp
    have e := mem_lazily hxy
    simp only [Bool.and_eq_true, decide_eq_true_eq, ne_eq, List.isPrefixOf_iff_prefix] at hp
    obtain ⟨⟨h1, ⟨y', h2⟩⟩, -⟩ := hp
    obtain ⟨x0, x', rfl⟩ := List.exists_cons_of_ne_nil h1
    rw [List.cons_append, List.cons.injEq] at e
    apply hn
    rw [e.2, ← h2]
    simp
  rw [hnone]
  simp [ht]

/-- A comment in place of a value. -/
theorem quoteMatches_remark (hm : Marks cd.isSpace) {w r : Str} (h : RemarkText cd.isSpace w)
    (hr : Remark cd.isSpace r) : (quoteMatches cd (w ++ r)).head? = some (some w) := by
  have ht := tailMatch_remark hm hr
  have hne : w ≠ [] := by
    rintro rfl
    rcases h.first with h | h <;> cases h
  obtain ⟨c, w', rfl⟩ := List.exists_cons_of_ne_nil hne
  have hc : c = ';' ∨ c = '#' := by simpa using h.first
  have hv : (valueMatches cd [] (c :: w' ++ r)).head? = some (some (c :: w')) := by
    unfold valueMatches
    apply head?_append_of_some
    rw [List.head?_map, lazily_first _ (c :: w') r (by simp [ht])]
    · rfl
    · intro a b hab hb
      by_cases ha : a = []
      · simp [ha]
      · simp [ha, tailMatch_within h.last h.comment hab hb r]
  have h2 : c ≠ '\'' ∧ c ≠ '"' := by rcases hc with rfl | rfl <;> decide
  simp only [List.cons_append] at hv ⊢
  unfold quoteMatches
  simp only [h2.1, h2.2, decide_false, Bool.or_self, Bool.false_eq_true, if_false, List.nil_append]
  exact hv

/-! ## Lines -/

theorem skipLine_key {key s : Str} (hk : Key cd.isSpace key) (hs : ∀ c ∈ s.head?, c ≠ '-') :
    skipLine (key ++ s) = false := by
  have h1 := hk.start
  obtain ⟨k0, key', hkey⟩ := List.exists_cons_of_ne_nil hk.nonempty
  have hk0 := hk.chars k0 (by rw [hkey]; simp)
  have h2 : ¬ "---".toList <+: key ++ s := by
    intro hp
    apply h1.2
    match key, hkey with
    | x :: [], _ =>
      cases s with
      | nil => simp at hp
      | cons c s =>
        simp at hp
        exact absurd hp.2.1.symm (hs c (by simp))
    | x :: y :: [], _ =>
      cases s with
      | nil => simp at hp
      | cons c s =>
        simp at hp
        exact absurd hp.2.2.symm (hs c (by simp))
    | x :: y :: z :: key, _ => simpa using hp
  have h3 : k0 ≠ '[' := by
    rintro rfl
    exact h1.1 (by rw [hkey]; rfl)
  rw [hkey] at h2 ⊢
  simp only [List.cons_append] at h2 ⊢
  unfold skipLine
  simp only [hk0.2.2.2.1, hk0.2.2.2.2, h3, decide_false, Bool.or_self, Bool.false_or]
  rw [Bool.eq_false_iff, Ne, List.isPrefixOf_iff_prefix]
  exact h2

/-- A line whose match is known. -/
theorem configLines_match (json : Str → List Str) {a key s t : Str} (ha : Blank cd.isSpace a)
    (hk : Key cd.isSpace key) (ht : Blank cd.isSpace t)
    (hl : ∀ c ∈ s.getLast?, cd.isSpace c = false) (hh : ∀ c ∈ s.head?, c ≠ '-')
    {e : Option Char} {v : Option Str} (h : lineMatch cd (key ++ s) = some (key, e, v))
    (lines : List Str) (items : List (Str × CfgValue)) :
    configLines cd json ((a ++ key ++ s ++ t) :: lines) items =
      configLines cd json lines (dictSet items key (lineValue json e v)) := by
  obtain ⟨k0, key', hkey⟩ := List.exists_cons_of_ne_nil hk.nonempty
  have hk0 := hk.chars k0 (by rw [hkey]; simp)
  have hstrip : strip cd (a ++ key ++ s ++ t) = key ++ s := by
    refine (stripBy_iff _ _ _).2 ⟨a, t, by simp, ha, ht, ?_, ?_⟩
    · intro c hc
      rw [hkey] at hc
      have : c = k0 := by simpa using hc.symm
      simp [this, hk0.1]
    · intro c hc
      have : cd.isSpace c = false := by
        by_cases hne : s = []
        · rw [hne, List.append_nil] at hc
          exact (hk.chars c (List.mem_of_mem_getLast? hc)).1
        · rw [List.getLast?_append_of_ne_nil _ hne] at hc
          exact hl c hc
      simp [this]
  rw [configLines, hstrip, skipLine_key hk hh]
  simp only [Bool.false_eq_true, if_false, h]

theorem not_dash (hm : Marks cd.isSpace) {c : Char} (h : cd.isSpace c = true) : c ≠ '-' := by
  rintro rfl
  rw [hm '-' (by decide)] at h
  cases h

theorem head_not_dash (hm : Marks cd.isSpace) {b t : Str} (hb : Blank cd.isSpace b) {x : Char}
    (hx : x ≠ '-') : ∀ c ∈ (b ++ x :: t).head?, c ≠ '-' := by
  intro c hc
  cases b with
  | nil =>
    have : c = x := by simpa using hc.symm
    rwa [this]
  | cons y b =>
    have : c = y := by simpa using hc.symm
    rw [this]
    exact not_dash hm (hb y (by simp))

/-- A line without a value is read as specified. -/
theorem configLines_valueless (hm : Marks cd.isSpace) (json : Str → List Str) {line key v : Str}
    (h : Valueless cd.isSpace line key v) (lines : List Str) (items : List (Str × CfgValue)) :
    configLines cd json (line :: lines) items =
      configLines cd json lines (dictSet items key (.text v)) := by
  cases h with
  | @alone a key t ha hk ht =>
    have := configLines_match json (s := []) ha hk ht (by simp) (by simp) (lineMatch_alone hk) lines
      items
    rw [List.append_nil] at this
    rw [this]
    rfl
  | @sign a key b c t ha hk hb hc ht =>
    have hcs : cd.isSpace c = false ∧ c ≠ '-' ∧ c ≠ ' ' := by
      rcases hc with rfl | rfl <;> exact ⟨hm _ (by decide), by decide, by decide⟩
    have hl := lineMatch_sign hm hk hb hc (d := []) (t := []) (by simp [Blank]) (by simp)
      quoteMatches_nil
    rw [configLines_match json (s := b ++ [c]) ha hk ht (by simp [hcs.1])
      (head_not_dash hm hb hcs.2.1) hl lines items]
    simp [lineValue, hcs.2.2]
  | @quotes a key b c d q r ha hk hb hc hd hq hn hr =>
    have hcs : c ≠ '-' ∧ c ≠ ' ' := by rcases hc with rfl | rfl <;> exact ⟨by decide, by decide⟩
    have hqs : cd.isSpace q = false := by rcases hq with rfl | rfl <;> exact hm _ (by decide)
    obtain ⟨r', t, rfl, ht, hr', hl⟩ := remark_trim hm hr
    have hmatch := lineMatch_sign hm hk hb hc hd (t := q :: q :: r') (by simp [hqs])
      (quoteMatches_quotes hm hq (fun h => hn (by simp [h])) hr')
    have e : a ++ key ++ (b ++ c :: d) ++ q :: q :: (r' ++ t) =
        a ++ key ++ (b ++ c :: (d ++ q :: q :: r')) ++ t := by simp
    rw [e, configLines_match json ha hk ht ?_ (head_not_dash hm hb hcs.1) hmatch lines items]
    · simp [lineValue, hcs.2]
    · intro x hx
      have e2 : b ++ c :: (d ++ q :: q :: r') = (b ++ c :: (d ++ [q])) ++ q :: r' := by simp
      rw [e2, List.getLast?_append_of_ne_nil _ (by simp)] at hx
      cases r' with
      | nil =>
        have : x = q := by simpa using hx.symm
        rwa [this]
      | cons y r' =>
        rw [List.getLast?_cons_cons] at hx
        exact hl x hx
  | @quotesTrue a key b q r ha hk hb hq hn hr hsp =>
    have hqs : cd.isSpace q = false ∧ q ≠ ':' ∧ q ≠ '=' := by
      rcases hq with rfl | rfl <;> exact ⟨hm _ (by decide), by decide, by decide⟩
    obtain ⟨r', t, rfl, ht, hr', hl⟩ := remark_trim hm hr
    have hmatch := lineMatch_blank hk hb hsp hqs.1 hqs.2
      (quoteMatches_quotes hm hq (fun h => hn (by simp [h])) hr')
    have e : a ++ key ++ (b ++ [' ']) ++ q :: q :: (r' ++ t) =
        a ++ key ++ (b ++ ' ' :: q :: q :: r') ++ t := by simp
    rw [e, configLines_match json ha hk ht ?_ (head_not_dash hm hb (by decide)) hmatch lines items]
    · simp [lineValue]
    · intro x hx
      have e2 : b ++ ' ' :: q :: q :: r' = (b ++ [' ', q]) ++ q :: r' := by simp
      rw [e2, List.getLast?_append_of_ne_nil _ (by simp)] at hx
      cases r' with
      | nil =>
        have : x = q := by simpa using hx.symm
        rw [this]
        exact hqs.1
      | cons y r' =>
        rw [List.getLast?_cons_cons] at hx
        exact hl x hx
  | @remark a key b w r ha hk hb hw hr =>
    obtain ⟨r', t, rfl, ht, hr', hl⟩ := remark_trim hm hr
    have hv := quoteMatches_remark hm hw hr'
    have hne : v ≠ [] := by
      rintro rfl
      rcases hw.first with h | h <;> cases h
    obtain ⟨m, w', rfl⟩ := List.exists_cons_of_ne_nil hne
    have hmm : m = ';' ∨ m = '#' := by simpa using hw.first
    have hms : cd.isSpace m = false ∧ m ≠ ':' ∧ m ≠ '=' ∧ m ≠ '[' := by
      rcases hmm with rfl | rfl <;> exact ⟨hm _ (by decide), by decide, by decide, by decide⟩
    have hlast : ∀ x ∈ (m :: w' ++ r').getLast?, cd.isSpace x = false := by
      intro x hx
      by_cases hr0 : r' = []
      · rw [hr0, List.append_nil] at hx
        exact hw.last x hx
      · rw [List.getLast?_append_of_ne_nil _ hr0] at hx
        exact hl x hx
    have hval : ∀ x : Option Char, lineValue json x (some (m :: w')) = .text (m :: w') := by
      intro x
      simp [lineValue, hms.2.2.2]
    cases hb with
    | @sign b c d hc hb hd =>
      have hcs : c ≠ '-' := by rcases hc with rfl | rfl <;> decide
      have hmatch := lineMatch_sign hm hk hb hc hd (t := m :: w' ++ r') (by simp [hms.1]) hv
      have e : a ++ key ++ (b ++ c :: d) ++ (m :: w' ++ (r' ++ t)) =
          a ++ key ++ (b ++ c :: (d ++ (m :: w' ++ r'))) ++ t := by simp
      rw [e, configLines_match json ha hk ht ?_ (head_not_dash hm hb hcs) hmatch lines items, hval]
      intro x hx
      have e2 : b ++ c :: (d ++ (m :: w' ++ r')) = (b ++ c :: d) ++ (m :: w' ++ r') := by simp
      rw [e2, List.getLast?_append_of_ne_nil _ (by simp)] at hx
      exact hlast x hx
    | blank hbne hbl =>
      obtain ⟨b', x, rfl⟩ := List.eq_nil_or_concat b |>.resolve_left hbne
      rw [List.concat_eq_append] at hbl ⊢
      have hx : cd.isSpace x = true := hbl x (by simp)
      have hb' : Blank cd.isSpace b' := fun d hd => hbl d (by simp [hd])
      have hmatch := lineMatch_blank hk hb' hx hms.1 ⟨hms.2.1, hms.2.2.1⟩ (t := w' ++ r') hv
      have e : a ++ key ++ (b' ++ [x]) ++ (m :: w' ++ (r' ++ t)) =
          a ++ key ++ (b' ++ x :: m :: (w' ++ r')) ++ t := by simp
      rw [e, configLines_match json ha hk ht ?_ (head_not_dash hm hb' (not_dash hm hx)) hmatch lines
        items, hval]
      intro y hy
      have e2 : b' ++ x :: m :: (w' ++ r') = (b' ++ [x]) ++ (m :: w' ++ r') := by simp
      rw [e2, List.getLast?_append_of_ne_nil _ (by simp)] at hy
      exact hlast y hy

/-- Distinct keys: the entries in their order. -/
theorem configLines_reads (hm : Marks cd.isSpace) (json : Str → List Str) {lines : List Str}
    {es : List (Str × Str)} (h : LinesRead cd.isSpace lines es) (items : List (Str × CfgValue))
    (hd : (items.map (·.1) ++ es.map (·.1)).Nodup)
    (hb : ∀ e ∈ es, e.2.head? ≠ some '[' ∨ e.2.getLast? ≠ some ']') :
    configLines cd json lines items = some (items ++ es.map fun e => (e.1, .text e.2)) := by
  have hnew : ∀ (items : List (Str × CfgValue)) (key v : Str) (es : List (Str × Str)),
      (items.map (·.1) ++ ((key, v) :: es).map (·.1)).Nodup →
      dictSet items key (.text v) = items ++ [(key, .text v)] := by
    intro items key v es hd
    unfold dictSet
    rw [if_neg]
    intro hany
    obtain ⟨e, he1, he2⟩ := List.any_eq_true.1 hany
    rw [List.nodup_append] at hd
    exact hd.2.2 key (List.mem_map.2 ⟨e, he1, by simpa using he2⟩) key (by simp) rfl
  induction h generalizing items with
  | nil => simp [configLines]
  | silent hs _ ih => rw [configLines_silent hm json hs, ih items hd hb]
  | @entry line lines key v es he _ ih =>
    have hv : entryValue json v = .text v := by
      unfold entryValue
      rw [if_neg (by
        rintro ⟨h1, h2⟩
        rcases hb (key, v) (by simp) with h | h
        · exact h h1
        · exact h h2)]
    rw [configLines_entry hm json he, hv, hnew items key v es hd,
      ih _ (by simpa using hd) fun e he => hb e (by simp [he])]
    simp
  | @valueless line lines key v es he _ ih =>
    rw [configLines_valueless hm json he, hnew items key v es hd,
      ih _ (by simpa using hd) fun e he => hb e (by simp [he])]
    simp

end Verif
