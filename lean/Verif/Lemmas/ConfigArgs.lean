import Verif.Lemmas.Config
import Mathlib.Data.List.TakeWhile

/-!
# Lemmas for C100: from the entries of a configuration file to arguments
-/

namespace Verif

variable {K : Type} {cd : CharData} {float : Str → Option K}

/-! ## Trimming -/

theorem dropWhile_append_all {α : Type} (p : α → Bool) (a s : List α) (h : ∀ c ∈ a, p c = true) :
    (a ++ s).dropWhile p = s.dropWhile p := by
  induction a with
  | nil => rfl
  | cons c a ih =>
    rw [List.cons_append, List.dropWhile_cons_of_pos (h c (by simp)),
      ih fun c hc => h c (by simp [hc])]

theorem dropWhile_of_head {α : Type} (p : α → Bool) (s : List α)
    (h : ∀ c ∈ s.head?, p c = false) : s.dropWhile p = s := by
  cases s with
  | nil => rfl
  | cons c s => rw [List.dropWhile_cons_of_neg (by simp [h c (by simp)])]

theorem stripBy_iff (p : Char → Bool) (s t : Str) :
    stripBy p s = t ↔ Trimmed (fun c => p c = true) s t := by
  constructor
  · rintro rfl
    have hpre : ∀ r : Str, ∃ b, r = (r.reverse.dropWhile p).reverse ++ b ∧ ∀ c ∈ b, p c = true := by
      intro r
      refine ⟨(r.reverse.takeWhile p).reverse, ?_, ?_⟩
      · rw [← List.reverse_append, List.takeWhile_append_dropWhile, List.reverse_reverse]
      · intro c hc
        exact List.mem_takeWhile_imp (List.mem_reverse.1 hc)
    obtain ⟨b, hb, hb'⟩ := hpre (s.dropWhile p)
    refine ⟨s.takeWhile p, b, ?_, fun c hc => List.mem_takeWhile_imp hc, hb', ?_, ?_⟩
    · rw [List.append_assoc]
      conv_lhs => rw [← List.takeWhile_append_dropWhile (p := p) (l := s)]
      rw [hb]
      unfold stripBy
      rw [← hb]
    · intro c hc
      have h1 : (s.dropWhile p).head? = some c := by
        rw [hb]
        unfold stripBy at hc
        cases hd : ((s.dropWhile p).reverse.dropWhile p).reverse with
        | nil => rw [hd] at hc; simp at hc
        | cons x xs => rw [hd] at hc; simpa using hc
      have := List.head?_dropWhile_not p s
      rw [h1] at this
      simpa using this
    · intro c hc
      unfold stripBy at hc
      rw [List.getLast?_reverse] at hc
      have := List.head?_dropWhile_not p (s.dropWhile p).reverse
      rw [Option.mem_def.1 hc] at this
      simpa using this
  · rintro ⟨a, b, rfl, ha, hb, hh, hl⟩
    unfold stripBy
    rw [List.append_assoc, dropWhile_append_all p a _ ha]
    cases t with
    | nil =>
      have := dropWhile_append_all p b [] hb
      rw [List.append_nil] at this
      simp [this]
    | cons c t =>
      rw [dropWhile_of_head p ((c :: t) ++ b) (by
        intro d hd
        have : d = c := by simpa using hd.symm
        subst this
        simpa using hh d (by simp))]
      rw [List.reverse_append, dropWhile_append_all p _ _ (fun d hd => hb d (List.mem_reverse.1 hd)),
        dropWhile_of_head p _ (by
          intro d hd
          rw [List.head?_reverse] at hd
          simpa using hl d hd), List.reverse_reverse]

/-! ## Keys -/

theorem keyOption_iff (key : Str) (o : Opt) : keyOption key = some o ↔ KeyFor key o := by
  have hname : ∀ e ∈ optionTable, "--".toList.isPrefixOf e.1 = true → e.1 = e.2.name := by
    decide +kernel
  constructor
  · intro h
    unfold keyOption at h
    split at h
    · cases h
    · rename_i e he
      simp only [Option.some.injEq] at h
      subst h
      have hm := List.mem_of_find?_eq_some he
      have hp := List.find?_some he
      simp only [Bool.and_eq_true, Bool.or_eq_true, decide_eq_true_eq] at hp
      have hn := hname e hm hp.1
      rcases hp.2 with h | h
      · exact .inl (h.symm.trans hn)
      · refine .inr ?_
        obtain ⟨t, ht⟩ := List.isPrefixOf_iff_prefix.1 hp.1
        rw [← h, ← hn, ← ht]
        rfl
  · rintro (rfl | h)
    · have : ∀ o ∈ Opt.all, keyOption o.name = some o := by decide +kernel
      exact this o (by cases o <;> decide)
    · have : ∀ o ∈ Opt.all, keyOption (o.name.drop 2) = some o := by decide +kernel
      have e : key = o.name.drop 2 := by rw [← h]; rfl
      rw [e]
      exact this o (by cases o <;> decide)

theorem keyOption_none (key : Str) : keyOption key = none ↔ ∀ o, ¬ KeyFor key o := by
  constructor
  · intro h o ho
    rw [(keyOption_iff key o).2 ho] at h
    cases h
  · intro h
    cases hk : keyOption key with
    | none => rfl
    | some o => exact absurd ((keyOption_iff key o).1 hk) (h o)

theorem commandKey_eq (o : Opt) : commandKey o = o.name := by
  have : ∀ o ∈ Opt.all, commandKey o = o.name := by decide +kernel
  exact this o (by cases o <;> decide)

theorem mentions_iff (argv : List Str) (n : Str) (hd : n.head? = some '-') (he : '=' ∉ n) :
    n ∈ argNames argv ↔ Mentions argv n := by
  unfold argNames Mentions
  rw [List.mem_map]
  constructor
  · rintro ⟨s, hs, h⟩
    split_ifs at h with hc
    · cases hp : (partitionEq s).2 with
      | none =>
        rw [partitionEq_none s hp] at h
        exact .inl (h ▸ hs)
      | some x =>
        have := (partitionEq_some s x hp).1
        rw [h] at this
        exact .inr ⟨x, this ▸ hs⟩
    · exact .inl (h ▸ hs)
  · rintro (h | ⟨x, h⟩)
    · refine ⟨n, h, ?_⟩
      rw [if_pos hd, partitionEq_no n he]
    · refine ⟨_, h, ?_⟩
      rw [if_pos, partitionEq_at n x he]
      cases n with
      | nil => cases hd
      | cons c n => exact hd

theorem optionStrings_iff (o : Opt) (s : Str) : s ∈ optionStrings o ↔
    s = o.name ∨ (o = .config ∧ s = "-c".toList) ∨ (o = .help ∧ s = "-h".toList) := by
  have h1 : optionStrings .config = ["-c".toList, Opt.name .config] := by decide +kernel
  have h2 : optionStrings .help = ["-h".toList, Opt.name .help] := by decide +kernel
  have h3 : ∀ o ∈ Opt.all, o ≠ .config → o ≠ .help → optionStrings o = [o.name] := by
    decide +kernel
  by_cases hc : o = .config
  · subst hc
    rw [h1]
    simp only [List.mem_cons, List.not_mem_nil, or_false, true_and, reduceCtorEq, false_and]
    tauto
  · by_cases hh : o = .help
    · subst hh
      rw [h2]
      simp only [List.mem_cons, List.not_mem_nil, or_false, true_and, reduceCtorEq, false_and]
      tauto
    · rw [h3 o (by cases o <;> decide) hc hh]
      simp [hc, hh]

theorem discarded_known (argv : List Str) {key : Str} {o : Opt} (h : KeyFor key o) :
    discarded argv key = true ↔ Given argv o := by
  unfold discarded Given
  rw [(keyOption_iff key o).2 h]
  simp only [List.any_eq_true, List.contains_eq_mem, decide_eq_true_eq]
  have hn : o.name.head? = some '-' := by
    obtain ⟨t, ht⟩ := o.name_dashes
    rw [← ht]
    rfl
  rw [← mentions_iff argv o.name hn o.name_eq, ← mentions_iff argv "-c".toList rfl (by decide),
    ← mentions_iff argv "-h".toList rfl (by decide)]
  constructor
  · rintro ⟨s, hs, hm⟩
    rcases (optionStrings_iff o s).1 hs with rfl | ⟨h, rfl⟩ | ⟨h, rfl⟩
    · exact .inl hm
    · exact .inr (.inl ⟨h, hm⟩)
    · exact .inr (.inr ⟨h, hm⟩)
  · rintro (hm | ⟨h, hm⟩ | ⟨h, hm⟩)
    · exact ⟨_, (optionStrings_iff o _).2 (.inl rfl), hm⟩
    · exact ⟨_, (optionStrings_iff o _).2 (.inr (.inl ⟨h, rfl⟩)), hm⟩
    · exact ⟨_, (optionStrings_iff o _).2 (.inr (.inr ⟨h, rfl⟩)), hm⟩

theorem trimmed_dash (key : Str) : Trimmed (· = '-') key (stripBy (· = '-') key) := by
  have h := (stripBy_iff (fun c => decide (c = '-')) key _).1 rfl
  simpa only [decide_eq_true_eq] using h

theorem trimmed_dash_eq {key k : Str} (h : Trimmed (· = '-') key k) :
    unknownKey key = "--".toList ++ k := by
  have : stripBy (fun c => decide (c = '-')) key = k :=
    (stripBy_iff _ _ _).2 (by simpa only [decide_eq_true_eq] using h)
  unfold unknownKey
  rw [this]

theorem unknownKey_no_eq {key : Str} (h : '=' ∉ key) : '=' ∉ unknownKey key := by
  obtain ⟨a, b, hk, -⟩ := trimmed_dash key
  unfold unknownKey
  rw [List.mem_append, not_or]
  refine ⟨by decide, fun hm => h ?_⟩
  rw [hk]
  simp [hm]

theorem discarded_unknown (argv : List Str) {key : Str} (h : ∀ o, ¬ KeyFor key o)
    (he : '=' ∉ key) : discarded argv key = true ↔ Mentions argv (unknownKey key) := by
  unfold discarded
  rw [(keyOption_none key).2 h]
  simp only [List.contains_eq_mem, decide_eq_true_eq]
  exact mentions_iff argv _ rfl (unknownKey_no_eq he)

/-! ## Arguments of the form `--NAME=VALUE` -/

/-- `--NAME=VALUE`. -/
def Glued (s : Str) : Prop := ∃ n v, s = n ++ '=' :: v ∧ "--".toList <+: n

theorem append_eq_cancel {n n' v v' : Str} (hn : '=' ∉ n) (hn' : '=' ∉ n')
    (h : n ++ '=' :: v = n' ++ '=' :: v') : n = n' ∧ v = v' := by
  have h1 := partitionEq_at n v hn
  rw [h, partitionEq_at n' v' hn'] at h1
  simp only [Prod.mk.injEq, Option.some.injEq] at h1
  exact ⟨h1.1.symm, h1.2.symm⟩

/-- A line that begins with `--NAME=VALUE`. -/
theorem says_glued_cons {s : Str} {rest : List Str} {L : List (Opt × Str)} (hs : Glued s)
    (h : Says cd (s :: rest) L) : ∃ n o v l, s = n ++ '=' :: v ∧ Names n o ∧ o ≠ .help ∧
      L = (o, v) :: l ∧ Says cd rest l := by
  obtain ⟨n₀, v₀, rfl, hd⟩ := hs
  obtain ⟨q, hq⟩ := hd
  generalize hs : n₀ ++ '=' :: v₀ = s at h
  generalize hargs : s :: rest = args at h
  cases h with
  | nil => cases hargs
  | @pair n o v rest' l hn ho hv hr =>
    cases hargs
    exact absurd (by rw [← hs]; simp) hn.no_eq
  | @glued n o v rest' l hn ho hr =>
    cases hargs
    refine ⟨n, o, v, l, rfl, ?_, ho, rfl, hr⟩
    rcases hn with hn | ⟨rfl, rfl⟩
    · exact hn
    · rw [← hq] at hs
      simp at hs
  | @short v rest' l h1 h2 hr =>
    cases hargs
    rw [← hq] at hs
    simp at hs

theorem says_split {a argv : List Str} {L : List (Opt × Str)} (ha : ∀ s ∈ a, Glued s)
    (h : Says cd (a ++ argv) L) : ∃ m l, L = m ++ l ∧ Says cd a m ∧ Says cd argv l := by
  induction a generalizing L with
  | nil => exact ⟨[], L, rfl, .nil, h⟩
  | cons s a ih =>
    obtain ⟨n, o, v, l, rfl, hn, ho, rfl, hr⟩ := says_glued_cons (ha s (by simp)) h
    obtain ⟨m, l', rfl, h1, h2⟩ := ih (fun s hs => ha s (by simp [hs])) hr
    exact ⟨(o, v) :: m, l', rfl, .glued (.inl hn) ho h1, h2⟩

theorem Glued.of {n : Str} (v : Str) (h : "--".toList <+: n) : Glued (n ++ '=' :: v) :=
  ⟨n, v, rfl, h⟩

theorem itemArgs_glued {key : Str} {v : CfgValue} {a : List Str} (h : itemArgs key v = some a) :
    ∀ s ∈ a, Glued s := by
  have hu : "--".toList <+: unknownKey key := ⟨_, rfl⟩
  unfold itemArgs at h
  split at h
  · simp only [Option.some.injEq] at h
    subst h
    intro s hs
    rw [List.mem_singleton] at hs
    subst hs
    rename_i o _ _
    rw [commandKey_eq]
    exact .of _ o.name_dashes
  · cases h
  · simp only [Option.some.injEq] at h
    subst h
    intro s hs
    rw [List.mem_singleton] at hs
    subst hs
    exact .of _ hu
  · simp only [Option.some.injEq] at h
    subst h
    intro s hs
    obtain ⟨x, -, rfl⟩ := List.mem_map.1 hs
    exact .of _ hu

theorem configArgs_glued (argv : List Str) {items : List (Str × CfgValue)} {a : List Str}
    (h : configArgs argv items = some a) : ∀ s ∈ a, Glued s := by
  induction items generalizing a with
  | nil => cases h; simp
  | cons e items ih =>
    obtain ⟨key, v⟩ := e
    unfold configArgs at h
    split_ifs at h with hd
    · exact ih h
    · split at h
      · cases h
      · rename_i x hx
        split at h
        · cases h
        · rename_i b hb
          cases h
          intro s hs
          rcases List.mem_append.1 hs with hs | hs
          · exact itemArgs_glued hx s hs
          · exact ih hb s hs

/-- Several values of one abbreviated option. -/
theorem says_map {n : Str} {o : Opt} (hn : Names n o) (ho : o ≠ .help) (vs : List Str) :
    Says cd (vs.map fun s => n ++ '=' :: s) (vs.map fun s => (o, s)) := by
  induction vs with
  | nil => exact .nil
  | cons v vs ih => exact .glued (.inl hn) ho ih

theorem says_map_inv {n : Str} (hd : "--".toList <+: n) (he : '=' ∉ n) {vs : List Str}
    {m : List (Opt × Str)} (h : Says cd (vs.map fun s => n ++ '=' :: s) m) :
    (vs = [] ∧ m = []) ∨ ∃ o, Names n o ∧ o ≠ .help ∧ m = vs.map fun s => (o, s) := by
  induction vs generalizing m with
  | nil =>
    generalize hargs : ([] : List Str).map (fun s => n ++ '=' :: s) = args at h
    cases h with
    | nil => exact .inl ⟨rfl, rfl⟩
    | pair => cases hargs
    | glued => cases hargs
    | short => cases hargs
  | cons v vs ih =>
    obtain ⟨n', o, v', l, h1, hn, ho, rfl, hr⟩ := says_glued_cons (.of v hd) h
    obtain ⟨rfl, rfl⟩ := append_eq_cancel he hn.no_eq h1
    refine .inr ⟨o, hn, ho, ?_⟩
    rcases ih hr with ⟨rfl, rfl⟩ | ⟨o', hn', -, rfl⟩
    · rfl
    · rw [hn.unique hn']
      rfl

theorem says_nil_inv {m : List (Opt × Str)} (h : Says cd [] m) : m = [] := by
  cases h; rfl

/-- The entries of a file, as arguments, say what they should. -/
theorem fileSays_iff (argv : List Str) (items : List (Str × CfgValue))
    (hk : ∀ e ∈ items, '=' ∉ e.1) (m : List (Opt × Str)) :
    FileSays argv items m ↔ ∃ a, configArgs argv items = some a ∧ Says cd a m := by
  constructor
  · intro h
    induction h with
    | nil => exact ⟨[], rfl, .nil⟩
    | @overridden key o v items m hkey hg _ ih =>
      obtain ⟨a, h1, h2⟩ := ih fun e he => hk e (by simp [he])
      refine ⟨a, ?_, h2⟩
      rw [configArgs, if_pos ((discarded_known argv hkey).2 hg), h1]
    | @option key o s items m hkey ho hg _ ih =>
      obtain ⟨a, h1, h2⟩ := ih fun e he => hk e (by simp [he])
      refine ⟨(o.name ++ '=' :: s) :: a, ?_, .glued (.inl o.names_name) ho h2⟩
      rw [configArgs, if_neg (fun h => hg ((discarded_known argv hkey).1 h)), h1]
      simp only [itemArgs, (keyOption_iff key o).2 hkey, commandKey_eq]
      rfl
    | @oddOverridden key k v items m hkey ht hm _ ih =>
      obtain ⟨a, h1, h2⟩ := ih fun e he => hk e (by simp [he])
      refine ⟨a, ?_, h2⟩
      rw [configArgs, if_pos ((discarded_unknown argv hkey (hk (key, v) List.mem_cons_self)).2
        (trimmed_dash_eq ht ▸ hm)), h1]
    | @abbreviated key k o v items m hkey ht hm hn ho _ ih =>
      obtain ⟨a, h1, h2⟩ := ih fun e he => hk e (by simp [he])
      rw [← trimmed_dash_eq ht] at hm hn
      refine ⟨v.strings.map (fun s => unknownKey key ++ '=' :: s) ++ a, ?_,
        Says.append cd (says_map hn ho v.strings) h2⟩
      rw [configArgs, if_neg (fun h => hm ((discarded_unknown argv hkey (hk (key, v) List.mem_cons_self)).1 h)), h1]
      cases v <;> simp [itemArgs, (keyOption_none key).2 hkey, CfgValue.strings]
    | @nothing key items m hkey _ ih =>
      obtain ⟨a, h1, h2⟩ := ih fun e he => hk e (by simp [he])
      refine ⟨a, ?_, h2⟩
      rw [configArgs, h1]
      simp [itemArgs, (keyOption_none key).2 hkey]
  · rintro ⟨a, ha, hs⟩
    induction items generalizing a m with
    | nil =>
      cases ha
      rw [says_nil_inv hs]
      exact .nil
    | cons e items ih =>
      obtain ⟨key, v⟩ := e
      have he : '=' ∉ key := hk (key, v) List.mem_cons_self
      have ih' := ih fun e he => hk e (by simp [he])
      unfold configArgs at ha
      split_ifs at ha with hd
      · cases hko : keyOption key with
        | some o =>
          have hkey := (keyOption_iff key o).1 hko
          exact .overridden hkey ((discarded_known argv hkey).1 hd) (ih' m a ha hs)
        | none =>
          have hkey := (keyOption_none key).1 hko
          exact .oddOverridden hkey (trimmed_dash key)
            ((discarded_unknown argv hkey he).1 hd) (ih' m a ha hs)
      · split at ha
        · cases ha
        · rename_i x hx
          split at ha
          · cases ha
          · rename_i b hb
            cases ha
            obtain ⟨m₁, m₂, rfl, hs1, hs2⟩ := says_split (itemArgs_glued hx) hs
            have hrest := ih' m₂ b hb hs2
            cases hko : keyOption key with
            | some o =>
              have hkey := (keyOption_iff key o).1 hko
              have hng := fun hg => hd ((discarded_known argv hkey).2 hg)
              cases v with
              | list l => simp [itemArgs, hko] at hx
              | text s =>
                simp only [itemArgs, hko, commandKey_eq, Option.some.injEq] at hx
                subst hx
                obtain ⟨n, o', v, l, h1, hn, ho, rfl, hr⟩ :=
                  says_glued_cons (.of s o.name_dashes) hs1
                obtain ⟨rfl, rfl⟩ := append_eq_cancel o.name_eq hn.no_eq h1
                rw [says_nil_inv hr]
                have := hn.unique o.names_name
                subst this
                exact .option hkey ho hng hrest
            | none =>
              have hkey := (keyOption_none key).1 hko
              have hnm := fun hm => hd ((discarded_unknown argv hkey he).2 hm)
              have hx' : x = v.strings.map fun s => unknownKey key ++ '=' :: s := by
                cases v <;> simp [itemArgs, hko] at hx <;> simp [CfgValue.strings, hx]
              subst hx'
              rcases says_map_inv ⟨_, rfl⟩ (unknownKey_no_eq he) hs1 with ⟨h1, rfl⟩ |
                ⟨o, hn, ho, rfl⟩
              · cases v with
                | text s => simp [CfgValue.strings] at h1
                | list l =>
                  have : l = [] := h1
                  subst this
                  exact .nothing hkey hrest
              · exact .abbreviated hkey (trimmed_dash key) hnm hn ho hrest

/-! ## The option `config` does not reach the program -/

theorem lastValue_cons (p : Opt × Str) (l : List (Opt × Str)) (o : Opt) (v : Str) :
    LastValue (p :: l) o v ↔ LastValue l o v ∨ (p = (o, v) ∧ ∀ w, (o, w) ∉ l) := by
  constructor
  · rintro ⟨a, b, h, hb⟩
    cases a with
    | nil =>
      cases h
      exact .inr ⟨rfl, hb⟩
    | cons x a =>
      cases h
      exact .inl ⟨a, b, rfl, hb⟩
  · rintro (h | ⟨rfl, h⟩)
    · exact lastValue_cons_of p h
    · exact ⟨[], l, rfl, h⟩

theorem lastValue_nil (o : Opt) (v : Str) : ¬ LastValue [] o v := by
  rintro ⟨a, b, h, -⟩
  simp at h

theorem exists_lastValue {l : List (Opt × Str)} {o : Opt} (h : ∃ v, (o, v) ∈ l) :
    ∃ v, LastValue l o v := by
  induction l with
  | nil => simp at h
  | cons p l ih =>
    by_cases h' : ∃ v, (o, v) ∈ l
    · obtain ⟨v, hv⟩ := ih h'
      exact ⟨v, lastValue_cons_of p hv⟩
    · push Not at h'
      obtain ⟨v, hv⟩ := h
      rcases List.mem_cons.1 hv with hv | hv
      · exact ⟨v, (lastValue_cons _ _ _ _).2 (.inr ⟨hv.symm, h'⟩)⟩
      · exact absurd hv (h' v)

/-- The options without `config`. -/
abbrev dropConfig (l : List (Opt × Str)) : List (Opt × Str) :=
  l.filter fun e => decide (e.1 ≠ .config)

theorem mem_dropConfig {l : List (Opt × Str)} {o : Opt} (ho : o ≠ .config) (v : Str) :
    (o, v) ∈ dropConfig l ↔ (o, v) ∈ l := by
  simp [dropConfig, ho]

theorem lastValue_dropConfig (l : List (Opt × Str)) {o : Opt} (ho : o ≠ .config) (v : Str) :
    LastValue (dropConfig l) o v ↔ LastValue l o v := by
  induction l with
  | nil => rfl
  | cons p l ih =>
    by_cases hp : p.1 = .config
    · have : dropConfig (p :: l) = dropConfig l := by simp [dropConfig, hp]
      rw [this, ih, lastValue_cons]
      constructor
      · exact .inl
      · rintro (h | ⟨rfl, -⟩)
        · exact h
        · exact absurd hp ho
    · have : dropConfig (p :: l) = p :: dropConfig l := by simp [dropConfig, hp]
      rw [this, lastValue_cons, lastValue_cons, ih]
      simp only [mem_dropConfig ho]

theorem denotes_dropConfig (l : List (Opt × Str)) (ns : Namespace K) :
    (∃ ns', Denotes cd float l ns' ∧ ns = Function.update ns' .config none) ↔
      Denotes cd float (dropConfig l) ns := by
  constructor
  · rintro ⟨ns', h, rfl⟩
    refine ⟨fun p hp => h.valid p (List.mem_of_mem_filter hp), fun o ho => ?_, ?_, fun o hu => ?_⟩
    · have hc : o ≠ .config := by
        rintro rfl
        simp [Opt.Mandatory] at ho
      obtain ⟨v, hv⟩ := h.mandatory o ho
      exact ⟨v, (mem_dropConfig hc v).2 hv⟩
    · intro l₁ o v l₂ hl hn
      have hc : o ≠ .config := by
        have : (o, v) ∈ dropConfig l := by rw [hl]; simp
        simpa using List.of_mem_filter this
      obtain ⟨a, b, hab, hb⟩ := (lastValue_dropConfig l hc v).1 ⟨l₁, l₂, hl, hn⟩
      rw [Function.update_of_ne hc]
      exact h.given a o v b hab hb
    · by_cases hc : o = .config
      · subst hc
        rw [Function.update_self]
        rfl
      · rw [Function.update_of_ne hc]
        exact h.unset o fun v hv => hu v ((mem_dropConfig hc v).2 hv)
  · intro h
    have hnone : ns .config = none := h.unset .config fun v hv => by simp at hv
    have hcfg : ∃ x : Option Str, (∀ v, LastValue l .config v → x = some v) ∧
        ((∀ v, (.config, v) ∉ l) → x = none) := by
      by_cases hex : ∃ v, (.config, v) ∈ l
      · obtain ⟨v, hv⟩ := exists_lastValue hex
        refine ⟨some v, fun w hw => by rw [hv.unique hw], fun hno => ?_⟩
        obtain ⟨w, hw⟩ := hex
        exact absurd hw (hno w)
      · push Not at hex
        refine ⟨none, ?_, fun _ => rfl⟩
        rintro v ⟨a, b, hl, -⟩
        exact absurd (by rw [hl]; simp) (hex v)
    obtain ⟨x, hx1, hx2⟩ := hcfg
    have hself : (Function.update ns .config x : Namespace K) .config = x :=
      Function.update_self (f := ns) (a := Opt.config) (v := x)
    have hother : ∀ o : Opt, o ≠ .config →
        (Function.update ns .config x : Namespace K) o = ns o := fun o ho =>
      Function.update_of_ne (f := ns) (a' := Opt.config) (v := x) ho
    refine ⟨Function.update ns .config x, ⟨?_, ?_, ?_, ?_⟩, ?_⟩
    · intro p hp
      by_cases hc : p.1 = .config
      · obtain ⟨o, v⟩ := p
        cases hc
        exact ⟨v, rfl⟩
      · exact h.valid p (List.mem_filter.2 ⟨hp, by simpa using hc⟩)
    · intro o ho
      obtain ⟨v, hv⟩ := h.mandatory o ho
      exact ⟨v, List.mem_of_mem_filter hv⟩
    · intro l₁ o v l₂ hl hn
      by_cases hc : o = .config
      · subst hc
        exact ⟨v, hself.trans (hx1 v ⟨l₁, l₂, hl, hn⟩), rfl⟩
      · rw [hother o hc]
        obtain ⟨a, b, hab, hb⟩ := (lastValue_dropConfig l hc v).2 ⟨l₁, l₂, hl, hn⟩
        exact h.given a o v b hab hb
    · intro o hu
      by_cases hc : o = .config
      · subst hc
        rw [hself, hx2 hu]
        rfl
      · rw [hother o hc]
        exact h.unset o fun v hv => hu v (List.mem_of_mem_filter hv)
    · funext o
      by_cases hc : o = .config
      · subst hc
        exact hnone.trans (Function.update_self (f := (Function.update ns .config x : Namespace K))
          (a := Opt.config) (v := none)).symm
      · exact ((Function.update_of_ne (f := (Function.update ns .config x : Namespace K))
          (a' := Opt.config) (v := none) hc).trans (hother o hc)).symm

end Verif
