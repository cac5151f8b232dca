import Verif.Lemmas.ConfigArgs

/-!
# Lemmas for C100: the text of a configuration file
-/

namespace Verif

variable {cd : CharData}

/-! ## The order of the search -/

theorem mem_greedy {p : Char → Bool} {s a b : Str} (h : (a, b) ∈ greedy p s) :
    s = a ++ b ∧ ∀ c ∈ a, p c = true := by
  induction s generalizing a b with
  | nil =>
    simp only [greedy, List.mem_singleton, Prod.mk.injEq] at h
    obtain ⟨rfl, rfl⟩ := h
    simp
  | cons c cs ih =>
    unfold greedy at h
    split_ifs at h with hc
    · rcases List.mem_append.1 h with h | h
      · obtain ⟨⟨a', b'⟩, hm, he⟩ := List.mem_map.1 h
        simp only [Prod.mk.injEq] at he
        obtain ⟨rfl, rfl⟩ := he
        obtain ⟨h1, h2⟩ := ih hm
        refine ⟨by rw [h1]; rfl, fun d hd => ?_⟩
        rcases List.mem_cons.1 hd with rfl | hd
        · exact hc
        · exact h2 d hd
      · simp only [List.mem_singleton, Prod.mk.injEq] at h
        obtain ⟨rfl, rfl⟩ := h
        simp
    · simp only [List.mem_singleton, Prod.mk.injEq] at h
      obtain ⟨rfl, rfl⟩ := h
      simp

theorem greedy_stop (p : Char → Bool) (t : Str) (ht : ∀ c ∈ t.head?, p c = false) :
    greedy p t = [([], t)] := by
  cases t with
  | nil => rfl
  | cons c t => rw [greedy, if_neg (by simp [ht c (by simp)])]

theorem greedy_first (p : Char → Bool) (a t : Str) (ha : ∀ c ∈ a, p c = true)
    (ht : ∀ c ∈ t.head?, p c = false) : ∃ l, greedy p (a ++ t) = (a, t) :: l := by
  induction a with
  | nil => exact ⟨[], greedy_stop p t ht⟩
  | cons c a ih =>
    obtain ⟨l, hl⟩ := ih fun d hd => ha d (by simp [hd])
    rw [List.cons_append, greedy, if_pos (ha c (by simp)), hl]
    exact ⟨_, rfl⟩

theorem greedy_second (p : Char → Bool) (a t : Str) (s : Char) (ha : ∀ c ∈ a, p c = true)
    (hs : p s = true) (ht : ∀ c ∈ t.head?, p c = false) :
    ∃ l, greedy p (a ++ s :: t) = (a ++ [s], t) :: (a, s :: t) :: l := by
  induction a with
  | nil =>
    rw [List.nil_append, greedy, if_pos hs, greedy_stop p t ht]
    exact ⟨[], rfl⟩
  | cons c a ih =>
    obtain ⟨l, hl⟩ := ih fun d hd => ha d (by simp [hd])
    rw [List.cons_append, greedy, if_pos (ha c (by simp)), hl]
    exact ⟨_, rfl⟩

theorem lazily_first (P : Str × Str → Bool) (x y : Str) (hP : P (x, y) = true)
    (hno : ∀ a b, x = a ++ b → b ≠ [] → P (a, b ++ y) = false) :
    ((lazily (x ++ y)).filter P).head? = some (x, y) := by
  induction x generalizing P with
  | nil =>
    cases y with
    | nil => simp [lazily, hP]
    | cons c y => simp [lazily, hP]
  | cons c x ih =>
    have h0 := hno [] (c :: x) rfl (by simp)
    have := ih (fun q => P (c :: q.1, q.2)) hP fun a b hab hb => hno (c :: a) b (by rw [hab]; rfl) hb
    rw [List.cons_append, lazily, List.filter_cons_of_neg (by simpa using h0), List.filter_map,
      List.head?_map]
    have e : (P ∘ fun q : Str × Str => (c :: q.1, q.2)) = fun q => P (c :: q.1, q.2) := rfl
    rw [e, this]
    rfl

theorem head?_append_of_some {α : Type} {a b : List α} {x : α} (h : a.head? = some x) :
    (a ++ b).head? = some x := by
  cases a with
  | nil => cases h
  | cons y a => exact h

theorem head?_flatMap_cons {α β : Type} (f : α → List β) (x : α) (l : List α) {y : β}
    (h : (f x).head? = some y) : ((x :: l).flatMap f).head? = some y := by
  rw [List.flatMap_cons]
  exact head?_append_of_some h

/-! ## Keys -/

theorem lineMatch_key {line key : Str} {e : Option Char} {v : Option Str}
    (h : lineMatch cd line = some (key, e, v)) : ∀ c ∈ key, keyChar cd c = true := by
  unfold lineMatch at h
  have hm := List.mem_of_mem_head? (Option.mem_def.2 h)
  obtain ⟨⟨k, r⟩, hk, hm⟩ := List.mem_flatMap.1 hm
  obtain ⟨w, -, hm⟩ := List.mem_flatMap.1 hm
  obtain ⟨m, -, he⟩ := List.mem_map.1 hm
  simp only [Prod.mk.injEq] at he
  rw [← he.1]
  exact (mem_greedy (List.mem_of_mem_filter hk)).2

theorem dictSet_keys {items : List (Str × CfgValue)} {key : Str} {v : CfgValue} {P : Str → Prop}
    (h : ∀ e ∈ items, P e.1) (hk : P key) : ∀ e ∈ dictSet items key v, P e.1 := by
  intro e he
  unfold dictSet at he
  split_ifs at he
  · obtain ⟨e', he', rfl⟩ := List.mem_map.1 he
    split_ifs
    · exact hk
    · exact h e' he'
  · rcases List.mem_append.1 he with he | he
    · exact h e he
    · rw [List.mem_singleton] at he
      rw [he]
      exact hk

theorem configLines_keys {json : Str → List Str} {lines : List Str}
    {items items' : List (Str × CfgValue)} (h : ∀ e ∈ items, '=' ∉ e.1)
    (hc : configLines cd json lines items = some items') : ∀ e ∈ items', '=' ∉ e.1 := by
  induction lines generalizing items with
  | nil => cases hc; exact h
  | cons line lines ih =>
    unfold configLines at hc
    split_ifs at hc
    · exact ih h hc
    · split at hc
      · cases hc
      · rename_i key equal value hm
        refine ih (dictSet_keys (P := fun k => '=' ∉ k) h fun hm' => ?_) hc
        have := lineMatch_key hm '=' hm'
        simp [keyChar] at this

theorem configItems_keys {json : Str → List Str} {text : Str} {items : List (Str × CfgValue)}
    (h : configItems cd json text = some items) : ∀ e ∈ items, '=' ∉ e.1 :=
  configLines_keys (by simp) h

/-! ## Values -/

theorem Marks.mk (hm : Marks cd.isSpace) {c : Char} (h : c ∈ ":=;#[-'\"".toList) :
    cd.isSpace c = false := hm c h

theorem tailMatch_remark (hm : Marks cd.isSpace) {r : Str} (h : Remark cd.isSpace r) :
    tailMatch cd r = true := by
  rcases h with h | ⟨a, c, r, rfl, ha, hb, hc⟩
  · have := dropWhile_append_all cd.isSpace r [] h
    rw [List.append_nil] at this
    simp [tailMatch, this]
  · have hcs : cd.isSpace c = false := by rcases hc with rfl | rfl <;> exact hm _ (by decide)
    have e : (a ++ c :: r).dropWhile cd.isSpace = c :: r := by
      rw [dropWhile_append_all _ _ _ hb, List.dropWhile_cons_of_neg (by simp [hcs])]
    have hl : 0 < a.length := List.length_pos_iff.2 ha
    simp only [tailMatch, e, List.length_append, List.length_cons, Bool.and_eq_true,
      Bool.or_eq_true, decide_eq_true_eq]
    exact ⟨hc, by omega⟩

/-- Within a plain value nothing looks like its end. -/
theorem tailMatch_within {v : Str} (hlast : ∀ c ∈ v.getLast?, cd.isSpace c = false)
    (hcomment : ∀ a s c b, v = a ++ s :: c :: b → cd.isSpace s = true → c ≠ ';' ∧ c ≠ '#')
    {a b : Str} (hab : v = a ++ b)
    (hb : b ≠ []) (r : Str) : tailMatch cd (b ++ r) = false := by
  -- blanks at the start of `b`, then a character that is none
  have hsplit : b = b.takeWhile cd.isSpace ++ b.dropWhile cd.isSpace :=
    List.takeWhile_append_dropWhile.symm
  have hblank : ∀ c ∈ b.takeWhile cd.isSpace, cd.isSpace c = true :=
    fun c hc => List.mem_takeWhile_imp hc
  cases hd : b.dropWhile cd.isSpace with
  | nil =>
    rw [hd, List.append_nil] at hsplit
    exfalso
    obtain ⟨b', x, rfl⟩ := List.eq_nil_or_concat b |>.resolve_left hb
    have h1 := hlast x (by rw [hab]; simp)
    have h2 := hblank x (by rw [← hsplit]; simp)
    rw [h1] at h2
    cases h2
  | cons c b' =>
    have hcs : cd.isSpace c = false := by
      have := List.head?_dropWhile_not cd.isSpace b
      rw [hd] at this
      simpa using this
    rw [hd] at hsplit
    have e : (b ++ r).dropWhile cd.isSpace = c :: (b' ++ r) := by
      rw [hsplit, List.append_assoc, dropWhile_append_all _ _ _ hblank, List.cons_append,
        List.dropWhile_cons_of_neg (by simp [hcs])]
    unfold tailMatch
    rw [e]
    simp only [Bool.and_eq_false_iff, Bool.or_eq_false_iff, decide_eq_false_iff_not]
    by_cases hw : b.takeWhile cd.isSpace = []
    · right
      rw [hw, List.nil_append] at hsplit
      rw [hsplit]
      simp
    · left
      obtain ⟨w, x, hwx⟩ := List.eq_nil_or_concat (b.takeWhile cd.isSpace) |>.resolve_left hw
      refine hcomment (a ++ w) x c b' ?_ (hblank x (by rw [hwx]; simp))
      rw [hab, hsplit, hwx]
      simp

theorem Written.head {v w : Str} (hm : Marks cd.isSpace) (h : Written cd.isSpace v w) :
    ∃ c w', w = c :: w' ∧ cd.isSpace c = false ∧ c ≠ ';' ∧ c ≠ '#' ∧ c ≠ ':' ∧ c ≠ '=' := by
  cases h with
  | plain h =>
    obtain ⟨c, r, rfl, h1, -, -, h2⟩ := h.first
    exact ⟨c, r, rfl, h1, h2⟩
  | quoted hq hv hn =>
    refine ⟨_, _, rfl, ?_⟩
    rcases hq with rfl | rfl
    · exact ⟨hm _ (by decide), by decide, by decide, by decide, by decide⟩
    · exact ⟨hm _ (by decide), by decide, by decide, by decide, by decide⟩

theorem Written.last {v w : Str} (hm : Marks cd.isSpace) (h : Written cd.isSpace v w) :
    ∃ c w', w = w' ++ [c] ∧ cd.isSpace c = false := by
  cases h with
  | plain h =>
    obtain ⟨c, r, hv, -⟩ := h.first
    obtain ⟨w', x, rfl⟩ := List.eq_nil_or_concat v |>.resolve_left (by rw [hv]; simp)
    exact ⟨x, w', by simp, h.last x (by simp)⟩
  | quoted hq hv hn =>
    refine ⟨_, _, rfl, ?_⟩
    rcases hq with rfl | rfl <;> exact hm _ (by decide)

theorem quoteMatches_written (hm : Marks cd.isSpace) {v w r : Str} (h : Written cd.isSpace v w)
    (hr : Remark cd.isSpace r) : (quoteMatches cd (w ++ r)).head? = some (some v) := by
  have ht := tailMatch_remark hm hr
  cases h with
  | plain h =>
    obtain ⟨c, v', rfl, h1, h2, h3, -⟩ := h.first
    have hv : (valueMatches cd [] (c :: v' ++ r)).head? = some (some (c :: v')) := by
      unfold valueMatches
      apply head?_append_of_some
      rw [List.head?_map, lazily_first _ (c :: v') r (by simp [ht])]
      · rfl
      · intro a b hab hb
        by_cases ha : a = []
        · simp [ha]
        · simp [ha, tailMatch_within h.last h.comment hab hb r]
    simp only [List.cons_append] at hv ⊢
    unfold quoteMatches
    simp only [h2, h3, decide_false, Bool.or_self, Bool.false_eq_true, if_false, List.nil_append]
    exact hv
  | @quoted q hq hv hn =>
    have hv' : (valueMatches cd [q] (v ++ q :: r)).head? = some (some v) := by
      unfold valueMatches
      apply head?_append_of_some
      rw [List.head?_map, lazily_first _ v (q :: r) (by simp [hv, ht])]
      · rfl
      · intro a b hab hb
        match b, hb with
        | d :: b', _ =>
          have : q ≠ d := by
            rintro rfl
            exact hn (by rw [hab]; simp)
          simp [this]
    have e : q :: v ++ [q] ++ r = q :: (v ++ q :: r) := by simp
    rw [e]
    unfold quoteMatches
    apply head?_append_of_some
    rw [if_pos (by simpa using hq)]
    exact hv'

theorem head?_map_some {α β : Type} (f : α → β) {l : List α} {x : α} (h : l.head? = some x) :
    (l.map f).head? = some (f x) := by
  rw [List.head?_map, h]
  rfl

/-- A line with key and value. -/
theorem lineMatch_entry (hm : Marks cd.isSpace) {key b v w r : Str} (hk : Key cd.isSpace key)
    (hb : Between cd.isSpace b) (hw : Written cd.isSpace v w) (hr : Remark cd.isSpace r) :
    ∃ e, lineMatch cd (key ++ b ++ w ++ r) = some (key, e, some v) := by
  obtain ⟨c, w', hwc, h1, h2, h3, h4, h5⟩ := hw.head hm
  have hq := quoteMatches_written hm hw hr
  have hkc : ∀ c ∈ key, keyChar cd c = true := by
    intro d hd
    obtain ⟨k1, k2, k3, k4, k5⟩ := hk.chars d hd
    simp [keyChar, k1, k2, k3, k4, k5]
  have hwr : ∀ d ∈ (w ++ r).head?, cd.isSpace d = false := by
    intro d hd
    rw [hwc] at hd
    have : d = c := by simpa using hd.symm
    rw [this]
    exact h1
  have key_first : ∀ s : Str, (∀ d ∈ s.head?, keyChar cd d = false) →
      ∀ e, (((greedy cd.isSpace s).flatMap fun w => (equalMatches cd w.2).map fun m =>
        (key, m.1, m.2)).head? = some (key, e, some v)) →
      lineMatch cd (key ++ s) = some (key, e, some v) := by
    intro s hs e he
    obtain ⟨l, hl⟩ := greedy_first (keyChar cd) key s hkc hs
    unfold lineMatch
    rw [hl, List.filter_cons_of_pos (by simpa using hk.nonempty)]
    exact head?_flatMap_cons _ _ _ he
  cases hb with
  | @sign a x b hx ha hb =>
    have hxs : cd.isSpace x = false := by rcases hx with rfl | rfl <;> exact hm _ (by decide)
    refine ⟨some x, ?_⟩
    have e : key ++ (a ++ x :: b) ++ w ++ r = key ++ (a ++ x :: (b ++ (w ++ r))) := by simp
    rw [e]
    apply key_first
    · intro d hd
      cases a with
      | nil =>
        have : d = x := by simpa using hd.symm
        rw [this]
        rcases hx with rfl | rfl <;> simp [keyChar]
      | cons y a =>
        have : d = y := by simpa using hd.symm
        rw [this]
        simp [keyChar, ha y (by simp)]
    · obtain ⟨l, hl⟩ := greedy_first cd.isSpace a (x :: (b ++ (w ++ r))) ha (by
        intro d hd
        have : d = x := by simpa using hd.symm
        rw [this]
        exact hxs)
      rw [hl]
      apply head?_flatMap_cons
      refine head?_map_some (fun m : Option Char × Option Str => (key, m.1, m.2))
        (x := (some x, some v)) ?_
      unfold equalMatches
      apply head?_append_of_some
      simp only
      rw [if_pos (by rcases hx with rfl | rfl <;> simp)]
      obtain ⟨l', hl'⟩ := greedy_first cd.isSpace b (w ++ r) hb hwr
      rw [hl']
      apply head?_flatMap_cons
      exact head?_map_some _ hq
  | blank hne hbl =>
    obtain ⟨a, x, rfl⟩ := List.eq_nil_or_concat b |>.resolve_left hne
    rw [List.concat_eq_append] at hbl ⊢
    have hx : cd.isSpace x = true := hbl x (by simp)
    refine ⟨some x, ?_⟩
    have e : key ++ (a ++ [x]) ++ w ++ r = key ++ (a ++ x :: (w ++ r)) := by simp
    rw [e]
    apply key_first
    · intro d hd
      have : cd.isSpace d = true := by
        cases a with
        | nil =>
          have : d = x := by simpa using hd.symm
          rw [this]
          exact hx
        | cons y a =>
          have : d = y := by simpa using hd.symm
          rw [this]
          exact hbl y (by simp)
      simp [keyChar, this]
    · obtain ⟨l, hl⟩ := greedy_second cd.isSpace a (w ++ r) x (fun d hd => hbl d (by simp [hd])) hx
        hwr
      rw [hl, List.flatMap_cons]
      have hempty : equalMatches cd (w ++ r) = [] := by
        have ht : tailMatch cd (c :: (w' ++ r)) = false := by
          simp [tailMatch, List.dropWhile_cons_of_neg, h1, h2, h3]
        rw [hwc, List.cons_append]
        unfold equalMatches
        simp [h1, h4, h5, ht]
      simp only [hempty, List.map_nil, List.nil_append]
      apply head?_flatMap_cons
      refine head?_map_some (fun m : Option Char × Option Str => (key, m.1, m.2))
        (x := (some x, some v)) ?_
      unfold equalMatches
      apply head?_append_of_some
      simp only
      rw [if_pos (by simp [hx]), greedy_stop _ _ hwr]
      apply head?_flatMap_cons
      exact head?_map_some _ hq

/-! ## Blanks around a line -/

/-- Blanks at the end of what follows a value. -/
theorem remark_trim (hm : Marks cd.isSpace) {r : Str} (h : Remark cd.isSpace r) :
    ∃ r' b, r = r' ++ b ∧ Blank cd.isSpace b ∧ Remark cd.isSpace r' ∧
      ∀ c ∈ r'.getLast?, cd.isSpace c = false := by
  rcases h with h | ⟨a, c, r, rfl, ha, hb, hc⟩
  · exact ⟨[], r, rfl, h, .inl (by simp [Blank]), by simp⟩
  · have hcs : cd.isSpace c = false := by rcases hc with rfl | rfl <;> exact hm _ (by decide)
    obtain ⟨x, y, hxy, -, hy, -, hl⟩ := (stripBy_iff cd.isSpace (c :: r) _).1 rfl
    have h1 : stripBy cd.isSpace (c :: r) = (((c :: r).reverse).dropWhile cd.isSpace).reverse := by
      unfold stripBy
      rw [List.dropWhile_cons_of_neg (by simp [hcs])]
    obtain ⟨r1, hr1⟩ : ∃ r1, stripBy cd.isSpace (c :: r) = c :: r1 := by
      have h2 : c :: r = stripBy cd.isSpace (c :: r) ++
          ((c :: r).reverse.takeWhile cd.isSpace).reverse := by
        rw [h1, ← List.reverse_append, List.takeWhile_append_dropWhile, List.reverse_reverse]
      cases hs : stripBy cd.isSpace (c :: r) with
      | nil =>
        rw [hs, List.nil_append] at h2
        have : cd.isSpace c = true := by
          have hmem : c ∈ ((c :: r).reverse.takeWhile cd.isSpace).reverse := by
            rw [← h2]; simp
          exact List.mem_takeWhile_imp (List.mem_reverse.1 hmem)
        rw [hcs] at this
        cases this
      | cons d r1 =>
        rw [hs] at h2
        simp only [List.cons_append, List.cons.injEq] at h2
        exact ⟨r1, by rw [h2.1]⟩
    have h2 : c :: r = stripBy cd.isSpace (c :: r) ++
        ((c :: r).reverse.takeWhile cd.isSpace).reverse := by
      rw [h1, ← List.reverse_append, List.takeWhile_append_dropWhile, List.reverse_reverse]
    refine ⟨a ++ c :: r1, ((c :: r).reverse.takeWhile cd.isSpace).reverse, ?_, ?_,
      .inr ⟨a, c, r1, rfl, ha, hb, hc⟩, ?_⟩
    · rw [List.append_assoc, ← hr1, ← h2]
    · intro d hd
      exact List.mem_takeWhile_imp (List.mem_reverse.1 hd)
    · intro d hd
      have : d ∈ (stripBy cd.isSpace (c :: r)).getLast? := by
        rw [hr1]
        rw [List.getLast?_append_of_ne_nil _ (by simp)] at hd
        exact hd
      simpa using hl d this

theorem Remark.blank_nil (isSpace : Char → Bool) : Remark isSpace [] := .inl (by simp [Blank])

/-- The value of an entry. -/
def entryValue (json : Str → List Str) (v : Str) : CfgValue :=
  if v.head? = some '[' ∧ v.getLast? = some ']' then .list (json v) else .text v

/-- An entry is read. -/
theorem configLines_entry (hm : Marks cd.isSpace) (json : Str → List Str) {line key v : Str}
    (h : Entry cd.isSpace line key v) (lines : List Str) (items : List (Str × CfgValue)) :
    configLines cd json (line :: lines) items =
      configLines cd json lines (dictSet items key (entryValue json v)) := by
  obtain ⟨hk, a, b, w, r, rfl, ha, hb, hw, hr⟩ := h
  obtain ⟨r', t, rfl, ht, hr', hl⟩ := remark_trim hm hr
  obtain ⟨k0, key', hkey⟩ := List.exists_cons_of_ne_nil hk.nonempty
  have hk0 := hk.chars k0 (by rw [hkey]; simp)
  have hstrip : strip cd (a ++ key ++ b ++ w ++ (r' ++ t)) = key ++ b ++ w ++ r' := by
    refine (stripBy_iff _ _ _).2 ⟨a, t, by simp, ha, ht, ?_, ?_⟩
    · intro c hc
      rw [hkey] at hc
      have : c = k0 := by simpa using hc.symm
      simp [this, hk0.1]
    · intro c hc
      have : cd.isSpace c = false := by
        by_cases hne : r' = []
        · obtain ⟨x, w', hw', hx⟩ := hw.last hm
          rw [hne, hw'] at hc
          have : c = x := by simpa [← List.append_assoc] using hc.symm
          rw [this]
          exact hx
        · rw [List.getLast?_append_of_ne_nil _ hne] at hc
          exact hl c hc
      simp [this]
  have hskip : skipLine (key ++ b ++ w ++ r') = false := by
    have h1 := hk.start
    have hbh : ∃ b0 b', b = b0 :: b' ∧ b0 ≠ '-' := by
      cases hb with
      | @sign a x b hx ha hb =>
        cases a with
        | nil => exact ⟨x, b, rfl, by rcases hx with rfl | rfl <;> decide⟩
        | cons y a =>
          refine ⟨y, _, rfl, ?_⟩
          rintro rfl
          have := ha '-' (by simp)
          rw [hm '-' (by decide)] at this
          cases this
      | blank hne hbl =>
        obtain ⟨y, b', rfl⟩ := List.exists_cons_of_ne_nil hne
        refine ⟨y, _, rfl, ?_⟩
        rintro rfl
        have := hbl '-' (by simp)
        rw [hm '-' (by decide)] at this
        cases this
    obtain ⟨b0, b', rfl, hb0⟩ := hbh
    have h2 : ¬ "---".toList <+: key ++ (b0 :: b') ++ w ++ r' := by
      intro hp
      apply h1.2
      have hp' : "---".toList <+: key ++ b0 :: (b' ++ (w ++ r')) := by
        simpa using hp
      -- the first three characters are those of the key
      match key, hkey with
      | x :: [], _ =>
        simp at hp'
        exact absurd hp'.2.1.symm hb0
      | x :: y :: [], _ =>
        simp at hp'
        exact absurd hp'.2.2.symm hb0
      | x :: y :: z :: key, _ => simpa using hp'
    have h3 : k0 ≠ '[' := by
      rintro rfl
      exact h1.1 (by rw [hkey]; rfl)
    rw [hkey] at h2 ⊢
    simp only [List.cons_append] at h2 ⊢
    unfold skipLine
    simp only [hk0.2.2.2.1, hk0.2.2.2.2, h3, decide_false, Bool.or_self, Bool.false_or]
    rw [Bool.eq_false_iff, Ne, List.isPrefixOf_iff_prefix]
    exact h2
  obtain ⟨e, he⟩ := lineMatch_entry hm hk hb hw hr'
  rw [configLines, hstrip, hskip]
  simp only [Bool.false_eq_true, if_false, he]
  rfl

/-- A line that says nothing is passed over. -/
theorem configLines_silent (hm : Marks cd.isSpace) (json : Str → List Str) {line : Str}
    (h : Silent cd.isSpace line) (lines : List Str) (items : List (Str × CfgValue)) :
    configLines cd json (line :: lines) items = configLines cd json lines items := by
  have hskip : skipLine (strip cd line) = true := by
    rcases h with h | ⟨a, r, rfl, ha, hr⟩
    · have : strip cd line = [] := (stripBy_iff _ _ _).2 ⟨line, [], by simp, h, by simp, by simp,
        by simp⟩
      rw [this]
      rfl
    · -- the mark survives
      have key : ∀ (m : Str) (x : Char) (q : Str), cd.isSpace x = false → r = m ++ x :: q →
          (∀ c ∈ m.head?, cd.isSpace c = false) →
          ∃ q', strip cd (a ++ r) = m ++ x :: q' := by
        intro m x q hx hrq hmh
        refine ⟨(q.reverse.dropWhile cd.isSpace).reverse, ?_⟩
        refine (stripBy_iff _ _ _).2 ⟨a, (q.reverse.takeWhile cd.isSpace).reverse, ?_, ha, ?_, ?_, ?_⟩
        · have : q = (q.reverse.dropWhile cd.isSpace).reverse ++
              (q.reverse.takeWhile cd.isSpace).reverse := by
            rw [← List.reverse_append, List.takeWhile_append_dropWhile, List.reverse_reverse]
          conv_lhs => rw [hrq, this]
          simp
        · exact fun c hc => List.mem_takeWhile_imp (List.mem_reverse.1 hc)
        · intro c hc
          cases m with
          | nil =>
            have : c = x := by simpa using hc.symm
            simp [this, hx]
          | cons y m =>
            have : c = y := by simpa using hc.symm
            simp [this, hmh y (by simp)]
        · intro c hc
          rw [List.getLast?_append_of_ne_nil _ (by simp)] at hc
          by_cases hq : (q.reverse.dropWhile cd.isSpace).reverse = []
          · rw [hq] at hc
            have : c = x := by simpa using hc.symm
            simp [this, hx]
          · rw [← List.singleton_append, List.getLast?_append_of_ne_nil _ hq,
              List.getLast?_reverse] at hc
            have := List.head?_dropWhile_not cd.isSpace q.reverse
            rw [Option.mem_def.1 hc] at this
            simpa using this
      rcases hr with ⟨q, hq⟩ | ⟨q, hq⟩ | ⟨q, hq⟩ | ⟨q, hq⟩
      · obtain ⟨q', h'⟩ := key [] '#' q (hm _ (by decide)) hq.symm (by simp)
        rw [h']
        simp [skipLine]
      · obtain ⟨q', h'⟩ := key [] ';' q (hm _ (by decide)) hq.symm (by simp)
        rw [h']
        simp [skipLine]
      · obtain ⟨q', h'⟩ := key [] '[' q (hm _ (by decide)) hq.symm (by simp)
        rw [h']
        simp [skipLine]
      · have hd := hm '-' (by decide)
        obtain ⟨q', h'⟩ := key "--".toList '-' q hd hq.symm (by
          intro c hc
          have : c = '-' := by simpa using hc.symm
          rw [this, hd])
        rw [h']
        simp [skipLine]
  rw [configLines, if_pos hskip]

theorem configLines_blank (json : Str → List Str) (lines : List Str)
    (items : List (Str × CfgValue)) :
    configLines cd json ([] :: lines) items = configLines cd json lines items := by
  rw [configLines, if_pos (by rfl)]

/-- Distinct keys: the entries in their order. -/
theorem configLines_says (hm : Marks cd.isSpace) (json : Str → List Str) {lines : List Str}
    {es : List (Str × Str)} (h : LinesSay cd.isSpace lines es) (items : List (Str × CfgValue))
    (hd : (items.map (·.1) ++ es.map (·.1)).Nodup) :
    configLines cd json lines items =
      some (items ++ es.map fun e => (e.1, entryValue json e.2)) := by
  induction h generalizing items with
  | nil => simp [configLines]
  | silent hs _ ih => rw [configLines_silent hm json hs, ih items hd]
  | @entry line lines key v es he _ ih =>
    have hnew : dictSet items key (entryValue json v) = items ++ [(key, entryValue json v)] := by
      unfold dictSet
      rw [if_neg]
      intro hany
      obtain ⟨e, he1, he2⟩ := List.any_eq_true.1 hany
      rw [List.nodup_append] at hd
      exact hd.2.2 key (List.mem_map.2 ⟨e, he1, by simpa using he2⟩) key (by simp) rfl
    rw [configLines_entry hm json he, hnew, ih _ (by simpa using hd)]
    simp

/-! ## Line breaks -/

theorem textLines_line (l : Str) (hl : '\n' ∉ l ∧ '\r' ∉ l) (s : Str) :
    ∃ h t, textLines s = h :: t ∧ textLines (l ++ s) = (l ++ h) :: t := by
  have hne : ∃ h t, textLines s = h :: t := by
    cases s with
    | nil => exact ⟨_, _, rfl⟩
    | cons c s =>
      unfold textLines
      split_ifs
      · exact ⟨_, _, rfl⟩
      · split <;> exact ⟨_, _, rfl⟩
  obtain ⟨h, t, hs⟩ := hne
  refine ⟨h, t, hs, ?_⟩
  induction l with
  | nil => exact hs
  | cons c l ih =>
    simp only [List.mem_cons, not_or] at hl
    rw [List.cons_append, textLines, if_neg (by
      rintro (h | h)
      · exact hl.1.1 h.symm
      · exact hl.2.1 h.symm), ih ⟨hl.1.2, hl.2.2⟩]
    rfl

theorem textLines_unix (lines : List Str) (hne : lines ≠ [])
    (h : ∀ l ∈ lines, '\n' ∉ l ∧ '\r' ∉ l) :
    textLines (lines.intersperse "\n".toList).flatten = lines := by
  induction lines with
  | nil => exact absurd rfl hne
  | cons l lines ih =>
    cases lines with
    | nil =>
      obtain ⟨x, t, h1, h2⟩ := textLines_line l (h l (by simp)) []
      cases h1
      simpa using h2
    | cons l' lines =>
      have e : ((l :: l' :: lines).intersperse "\n".toList).flatten =
          l ++ '\n' :: ((l' :: lines).intersperse "\n".toList).flatten := by
        simp [List.intersperse]
      rw [e]
      obtain ⟨x, t, h1, h2⟩ := textLines_line l (h l (by simp))
        ('\n' :: ((l' :: lines).intersperse "\n".toList).flatten)
      rw [textLines, if_pos (by simp), ih (by simp) fun l hl => h l (by simp [hl])] at h1
      cases h1
      simpa using h2

theorem textLines_dos (json : Str → List Str) (lines : List Str) (hne : lines ≠ [])
    (h : ∀ l ∈ lines, '\n' ∉ l ∧ '\r' ∉ l) (items : List (Str × CfgValue)) :
    configLines cd json (textLines (lines.intersperse "\r\n".toList).flatten) items =
      configLines cd json lines items := by
  have key : textLines (lines.intersperse "\r\n".toList).flatten = lines.intersperse [] := by
    induction lines with
    | nil => exact absurd rfl hne
    | cons l lines ih =>
      cases lines with
      | nil =>
        obtain ⟨x, t, h1, h2⟩ := textLines_line l (h l (by simp)) []
        cases h1
        simpa using h2
      | cons l' lines =>
        have e : ((l :: l' :: lines).intersperse "\r\n".toList).flatten =
            l ++ '\r' :: '\n' :: ((l' :: lines).intersperse "\r\n".toList).flatten := by
          simp [List.intersperse]
        rw [e]
        obtain ⟨x, t, h1, h2⟩ := textLines_line l (h l (by simp))
          ('\r' :: '\n' :: ((l' :: lines).intersperse "\r\n".toList).flatten)
        rw [textLines, if_pos (by simp), textLines, if_pos (by simp),
          ih (by simp) fun l hl => h l (by simp [hl])] at h1
        cases h1
        simpa [List.intersperse] using h2
  rw [key]
  clear key hne h
  induction lines generalizing items with
  | nil => rfl
  | cons l lines ih =>
    cases lines with
    | nil => rfl
    | cons l' lines =>
      have e : (l :: l' :: lines).intersperse ([] : Str) = l :: [] :: (l' :: lines).intersperse [] := by
        simp [List.intersperse]
      rw [e]
      conv_lhs => unfold configLines
      conv_rhs => unfold configLines
      split_ifs
      · rw [configLines_blank, ih]
      · split
        · rfl
        · rw [configLines_blank, ih]

/-- The text of a file with these lines. -/
theorem configItems_lines (json : Str → List Str) {text : Str} {lines : List Str}
    (h : HasLines text lines) :
    configItems cd json text = configLines cd json lines [] := by
  obtain ⟨hl, ht⟩ := h
  by_cases hne : lines = []
  · subst hne
    have : text = [] := by rcases ht with ht | ht <;> simpa using ht
    subst this
    exact configLines_blank json [] []
  · rcases ht with rfl | rfl
    · unfold configItems
      rw [textLines_unix lines hne hl]
    · exact textLines_dos json lines hne hl []

end Verif
