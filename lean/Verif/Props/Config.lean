import Verif.Lemmas.ConfigText
import Verif.Props.Args

/-!
# C100, C101: what a configuration file means
-/

namespace Verif

section
variable {K : Type} (cd : CharData) (float : Str → Option K) (json : Str → List Str)
  (fs : Str → Option Str)

/-- **C100**.  A command line, with the files `fs`, is accepted with the result `ns` exactly if it
is a sequence of options with values (`Says`) and the options of the named file (`FromFile`) followed
by those of the command line mean `ns`: every value is valid, nothing mandatory is missing, the last
value of an option counts.  `config` itself is removed. -/
theorem C100_accepted_iff (hl : cd.Lawful) (argv : List Str) (ns : Namespace K) :
    parseCommand cd float json fs argv = .ok ns ↔
      ∃ l m, Says cd argv l ∧ FromFile (fun p => (fs p).bind (configItems cd json)) argv l m ∧
        Denotes cd float ((m ++ l).filter fun e => decide (e.1 ≠ .config)) ns := by
  have hmain : ∀ args : List Str,
      (match parseMain cd float args with
        | .error e => Except.error e
        | .ok ns => .ok (Function.update ns .config none)) = Except.ok ns ↔
      ∃ L, Says cd args L ∧ Denotes cd float (dropConfig L) ns := by
    intro args
    constructor
    · intro h
      cases hp : parseMain cd float args with
      | error e => rw [hp] at h; cases h
      | ok ns' =>
        rw [hp] at h
        obtain ⟨L, hs, hd⟩ := (parseMain_iff cd float hl args ns').1 hp
        exact ⟨L, hs, (denotes_dropConfig L ns).1 ⟨ns', hd, (Except.ok.inj h).symm⟩⟩
    · rintro ⟨L, hs, hd⟩
      obtain ⟨ns', hd', rfl⟩ := (denotes_dropConfig L ns).2 hd
      rw [(parseMain_iff cd float hl args ns').2 ⟨L, hs, hd'⟩]
  constructor
  · intro h
    unfold parseCommand at h
    cases ha : allArgs cd json fs argv with
    | error e => rw [ha] at h; cases h
    | ok args =>
      rw [ha] at h
      obtain ⟨L, hs, hd⟩ := (hmain args).1 h
      unfold allArgs at ha
      split_ifs at ha with hhelp
      · cases ha
        have := hs.no_help
        rw [this] at hhelp
        cases hhelp
      · cases hc : configPath cd none false argv with
        | none =>
          rw [hc] at ha
          cases ha
          refine ⟨L, [], hs, .inl ⟨fun p hp => ?_, rfl⟩, hd⟩
          rcases hs.configPath none with ⟨v, h1, -⟩ | ⟨-, h2⟩
          · rw [hc] at h1; cases h1
          · obtain ⟨a, b, rfl, -⟩ := hp
            exact absurd (by simp) (h2 p)
        | some q =>
          rw [hc] at ha
          cases q with
          | nil =>
            cases ha
            refine ⟨L, [], hs, .inl ⟨fun p hp => ?_, rfl⟩, hd⟩
            rcases hs.configPath none with ⟨v, h1, h2⟩ | ⟨h1, -⟩
            · rw [hc] at h1
              cases h1
              exact hp.unique h2
            · rw [hc] at h1; cases h1
          | cons c p =>
            simp only at ha
            split at ha
            · cases ha
            · rename_i text htext
              split at ha
              · cases ha
              · rename_i items hitems
                split at ha
                · cases ha
                · rename_i a hcfg
                  cases ha
                  obtain ⟨m, l, rfl, hm, hs'⟩ := says_split (configArgs_glued argv hcfg) hs
                  refine ⟨l, m, hs', .inr ⟨c :: p, items, ?_, by simp, ?_, ?_⟩, hd⟩
                  · rcases hs'.configPath none with ⟨v, h1, h2⟩ | ⟨h1, -⟩
                    · rw [hc] at h1
                      cases h1
                      exact h2
                    · rw [hc] at h1; cases h1
                  · simp [htext, hitems]
                  · exact (fileSays_iff (cd := cd) argv items (configItems_keys hitems) m).2
                      ⟨a, hcfg, hm⟩
  · rintro ⟨l, m, hs, hf, hd⟩
    have hhelp := hs.no_help
    have hpath := hs.configPath none
    unfold parseCommand
    rcases hf with ⟨hno, rfl⟩ | ⟨p, es, hp, hne, hitems, hsays⟩
    · have hall : allArgs cd json fs argv = .ok argv := by
        unfold allArgs
        rw [if_neg (by rw [hhelp]; simp)]
        rcases hpath with ⟨v, h1, h2⟩ | ⟨h1, -⟩
        · rw [h1, hno v h2]
        · rw [h1]
      rw [hall]
      exact (hmain argv).2 ⟨l, hs, hd⟩
    · obtain ⟨text, htext, hitems'⟩ := Option.bind_eq_some_iff.1 hitems
      obtain ⟨a, ha, hsa⟩ :=
        (fileSays_iff (cd := cd) argv es (configItems_keys hitems') m).1 hsays
      have hall : allArgs cd json fs argv = .ok (a ++ argv) := by
        unfold allArgs
        rw [if_neg (by rw [hhelp]; simp)]
        rcases hpath with ⟨v, h1, h2⟩ | ⟨-, h2⟩
        · have := h2.unique hp
          subst this
          obtain ⟨c, q, rfl⟩ := List.exists_cons_of_ne_nil hne
          simp only [h1, htext, hitems', ha]
        · obtain ⟨x, y, rfl, -⟩ := hp
          exact absurd (by simp) (h2 p)
      rw [hall]
      exact (hmain (a ++ argv)).2 ⟨m ++ l, Says.append cd hsa hs, hd⟩

/-- **C100** (other outcomes).  Every other command line ends the program with status 2, or with
status 0 (help); no exception escapes. -/
theorem C100_rejected (argv : List Str) (e : Stop)
    (h : parseCommand cd float json fs argv = .error e) : e = .exit 2 ∨ e = .exit 0 := by
  unfold parseCommand at h
  cases ha : allArgs cd json fs argv with
  | error e' =>
    rw [ha] at h
    cases h
    left
    unfold allArgs at ha
    split_ifs at ha
    repeat' split at ha
    all_goals first | (cases ha; rfl) | cases ha
  | ok args =>
    rw [ha] at h
    simp only at h
    split at h
    · rename_i e' hp
      cases h
      unfold parseMain at hp
      cases hc : classify cd args with
      | error e'' =>
        rw [hc] at hp
        cases hp
        exact .inl (classify_error cd args _ hc)
      | ok toks =>
        simp only [hc] at hp
        cases hcons : consume cd float toks ⟨Namespace.defaults K, [], 0⟩ with
        | error e'' =>
          rw [hcons] at hp
          cases hp
          rcases consume_error cd float toks _ _ hcons with h | ⟨h, -⟩
          · exact .inl h
          · exact .inr h
        | ok st =>
          rw [hcons] at hp
          simp only at hp
          split_ifs at hp <;> cases hp <;> exact .inl rfl
    · cases h

/-- **C100** (what the program gets).  The options of an accepted command line and its file satisfy
what the rest of the program relies on. -/
theorem C100_usable (hl : cd.Lawful) (argv : List Str) (ns : Namespace K)
    (h : parseCommand cd float json fs argv = .ok ns) :
    ns.options.Accepted ∧
    (∀ t : List ℤ, ns .flowGridShape = some t → ∀ x ∈ t, 0 < x) ∧
    (∀ t : List ℤ, ns .particlesGridShape = some t → ∀ x ∈ t, 0 < x) ∧
    ∃ l m, Says cd argv l ∧ FromFile (fun p => (fs p).bind (configItems cd json)) argv l m ∧
      ∀ (files : Str → Option (List Char)) (per : K → K → Py ℤ),
        ∃ a, ns.program files per = some a ∧
          ArgsOf cd float files per ((m ++ l).filter (·.1 ≠ .config)) a := by
  obtain ⟨l, m, hs, hm, hd⟩ := (C100_accepted_iff cd float json fs hl argv ns).1 h
  obtain ⟨h1, h2, h3, h4⟩ := hd.usable cd float
  exact ⟨h1, h2, h3, l, m, hs, hm, h4⟩

/-! ## Which value counts -/

theorem Says.functional {argv : List Str} {l l' : List (Opt × Str)} (h : Says cd argv l)
    (h' : Says cd argv l') : l = l' := by
  have hshort : ∀ {n v : Str} {o : Opt}, Writes n o → v ≠ [] → n ≠ "-c".toList ++ v := by
    rintro n v o (h | ⟨rfl, -⟩) hv he
    · obtain ⟨⟨t, rfl⟩, -⟩ := h
      simp at he
    · exact hv (by simpa using he.symm)
  have hshort' : ∀ {n v w : Str} {o : Opt}, Writes n o → v.head? ≠ some '=' →
      n ++ '=' :: w ≠ "-c".toList ++ v := by
    rintro n v w o (h | ⟨rfl, -⟩) hv he
    · obtain ⟨⟨t, rfl⟩, -⟩ := h
      simp at he
    · have : '=' :: w = v := by simpa using he
      rw [← this] at hv
      exact hv rfl
  induction h generalizing l' with
  | nil => cases h'; rfl
  | @pair n o v rest l hn ho hv _ ih =>
    generalize hs : n = s at h'
    cases h' with
    | pair hn' ho' hv' hr => subst hs; rw [hn.unique hn', ih hr]
    | glued hn' ho' hr => exact absurd (by rw [hs]; simp) hn.no_eq
    | short h1 h2 hr => exact absurd hs (hshort hn h1)
  | @glued n o v rest l hn ho _ ih =>
    generalize hs : n ++ '=' :: v = s at h'
    cases h' with
    | pair hn' ho' hv' hr => exact absurd (by rw [← hs]; simp) hn'.no_eq
    | glued hn' ho' hr =>
      obtain ⟨rfl, rfl⟩ := append_eq_cancel hn.no_eq hn'.no_eq hs
      rw [hn.unique hn', ih hr]
    | short h1 h2 hr => exact absurd hs (hshort' hn h2)
  | @short v rest l h1 h2 _ ih =>
    generalize hs : "-c".toList ++ v = s at h'
    cases h' with
    | pair hn' ho' hv' hr => exact absurd hs.symm (hshort hn' h1)
    | glued hn' ho' hr => exact absurd hs.symm (hshort' hn' h2)
    | short h1' h2' hr =>
      have := List.append_cancel_left hs
      rw [this, ih hr]

theorem Says.mem {argv : List Str} {l : List (Opt × Str)} (h : Says cd argv l) {s : Str}
    (hs : s ∈ argv) : Plain cd s ∨ ∃ (o : Opt) (v : Str), (o, v) ∈ l ∧ o ≠ .help ∧
      (Writes s o ∨ (∃ n, Writes n o ∧ s = n ++ '=' :: v) ∨
        (s = "-c".toList ++ v ∧ v ≠ [] ∧ v.head? ≠ some '=')) := by
  have lift : ∀ {l : List (Opt × Str)} {q : Opt × Str}, (Plain cd s ∨ ∃ (o : Opt) (v : Str),
      (o, v) ∈ l ∧ o ≠ .help ∧ (Writes s o ∨ (∃ n, Writes n o ∧ s = n ++ '=' :: v) ∨
        (s = "-c".toList ++ v ∧ v ≠ [] ∧ v.head? ≠ some '='))) →
      (Plain cd s ∨ ∃ (o : Opt) (v : Str), (o, v) ∈ q :: l ∧ o ≠ .help ∧
        (Writes s o ∨ (∃ n, Writes n o ∧ s = n ++ '=' :: v) ∨
        (s = "-c".toList ++ v ∧ v ≠ [] ∧ v.head? ≠ some '='))) := by
    rintro l q (h | ⟨o, v, h1, h2⟩)
    · exact .inl h
    · exact .inr ⟨o, v, by simp [h1], h2⟩
  induction h with
  | nil => simp at hs
  | @pair n o v rest l hn ho hv _ ih =>
    simp only [List.mem_cons] at hs
    rcases hs with rfl | rfl | hs
    · exact .inr ⟨o, v, by simp, ho, .inl hn⟩
    · exact .inl hv
    · exact lift (ih hs)
  | @glued n o v rest l hn ho _ ih =>
    simp only [List.mem_cons] at hs
    rcases hs with rfl | hs
    · exact .inr ⟨o, v, by simp, ho, .inr (.inl ⟨n, hn, rfl⟩)⟩
    · exact lift (ih hs)
  | @short v rest l h1 h2 _ ih =>
    simp only [List.mem_cons] at hs
    rcases hs with rfl | hs
    · exact .inr ⟨.config, v, by simp, by simp, .inr (.inr ⟨rfl, h1, h2⟩)⟩
    · exact lift (ih hs)

/-- What stands on the command line under its full name is one of its options. -/
theorem Says.given {argv : List Str} {l : List (Opt × Str)} (h : Says cd argv l) {o : Opt}
    (hg : Given argv o) : ∃ v, (o, v) ∈ l := by
  have not_plain : ∀ s : Str, LikeOption s → "-".toList <+: s → s ≠ "-".toList → ¬ Plain cd s := by
    rintro s h1 h2 h3 (h | h | ⟨h, -⟩)
    · exact h h2
    · exact h3 h
    · exact h h1
  rcases hg with hg | ⟨rfl, hg⟩ | ⟨rfl, hg⟩
  · obtain ⟨t, ht⟩ := o.name_dashes
    rcases hg with hg | ⟨x, hg⟩
    · rcases h.mem cd hg with h' | ⟨o', v, hm, -, hw | ⟨n, hn, he⟩ | ⟨he, -⟩⟩
      · refine absurd h' (not_plain _ (.inr (.inr ⟨o.name, o, o.name_dashes, List.prefix_refl _,
          .inl rfl⟩)) ?_ ?_)
        · rw [← ht]; exact ⟨'-' :: t, rfl⟩
        · rw [← ht]; simp
      · have : o' = o := hw.unique (.inl o.names_name)
        exact ⟨v, this ▸ hm⟩
      · exact absurd (by rw [he]; simp) o.name_eq
      · rw [← ht] at he; simp at he
    · rcases h.mem cd hg with h' | ⟨o', v, hm, -, hw | ⟨n, hn, he⟩ | ⟨he, -⟩⟩
      · refine absurd h' (not_plain _ (.inr (.inr ⟨o.name, o, o.name_dashes, List.prefix_refl _,
          .inr ⟨x, rfl⟩⟩)) ?_ ?_)
        · rw [← ht]; exact ⟨'-' :: (t ++ '=' :: x), rfl⟩
        · rw [← ht]; simp
      · exact absurd (by simp) hw.no_eq
      · obtain ⟨rfl, rfl⟩ := append_eq_cancel o.name_eq hn.no_eq he
        have : o' = o := hn.unique (.inl o.names_name)
        exact ⟨_, this ▸ hm⟩
      · rw [← ht] at he; simp at he
  · have hc : Writes "-c".toList .config := .inr ⟨rfl, rfl⟩
    rcases hg with hg | ⟨x, hg⟩
    · rcases h.mem cd hg with h' | ⟨o', v, hm, -, hw | ⟨n, hn, he⟩ | ⟨he, hv, -⟩⟩
      · exact absurd h' (not_plain _ (.inr (.inl (List.prefix_refl _))) (by decide) (by decide))
      · have : o' = .config := hw.unique hc
        exact ⟨v, this ▸ hm⟩
      · exact absurd (show '=' ∈ "-c".toList by rw [he]; simp) (by decide)
      · exact absurd (by simpa using he) hv
    · rcases h.mem cd hg with h' | ⟨o', v, hm, -, hw | ⟨n, hn, he⟩ | ⟨he, -, hv⟩⟩
      · exact absurd h' (not_plain _ (.inr (.inl ⟨'=' :: x, rfl⟩)) ⟨'c' :: '=' :: x, rfl⟩ (by simp))
      · exact absurd (by simp) hw.no_eq
      · obtain ⟨rfl, rfl⟩ := append_eq_cancel (by decide) hn.no_eq he
        have : o' = .config := hn.unique hc
        exact ⟨_, this ▸ hm⟩
      · have : '=' :: x = v := List.append_cancel_left he
        rw [← this] at hv
        exact absurd rfl hv
  · exfalso
    have hnw : ∀ o', ¬ Writes "-h".toList o' := by
      rintro o' (h | ⟨h, -⟩)
      · exact absurd h.1 (by decide)
      · simp at h
    rcases hg with hg | ⟨x, hg⟩
    · rcases h.mem cd hg with h' | ⟨o', v, hm, -, hw | ⟨n, hn, he⟩ | ⟨he, -⟩⟩
      · exact absurd h' (not_plain _ (.inl (List.prefix_refl _)) (by decide) (by decide))
      · exact hnw _ hw
      · exact absurd (show '=' ∈ "-h".toList by rw [he]; simp) (by decide)
      · simp at he
    · rcases h.mem cd hg with h' | ⟨o', v, hm, -, hw | ⟨n, hn, he⟩ | ⟨he, -⟩⟩
      · exact absurd h' (not_plain _ (.inl ⟨'=' :: x, rfl⟩) ⟨'h' :: '=' :: x, rfl⟩ (by simp))
      · exact absurd (by simp) hw.no_eq
      · obtain ⟨rfl, -⟩ := append_eq_cancel (by decide) hn.no_eq he
        exact hnw _ hn
      · simp at he

theorem lastValue_append_right {m l : List (Opt × Str)} {o : Opt} {v : Str}
    (h : LastValue l o v) : LastValue (m ++ l) o v := by
  obtain ⟨a, b, rfl, hb⟩ := h
  exact ⟨m ++ a, b, by simp, hb⟩

theorem lastValue_append_left {m l : List (Opt × Str)} {o : Opt} {v : Str}
    (h : LastValue m o v) (hl : ∀ w, (o, w) ∉ l) : LastValue (m ++ l) o v := by
  obtain ⟨a, b, rfl, hb⟩ := h
  refine ⟨a, b ++ l, by simp, fun w hw => ?_⟩
  rcases List.mem_append.1 hw with hw | hw
  · exact hb w hw
  · exact hl w hw

/-- **C100** (precedence).  An option on the command line, in any spelling, has its last value
there, whatever the file says. -/
theorem C100_override (hl : cd.Lawful) {argv : List Str} {l : List (Opt × Str)} {ns : Namespace K}
    (hs : Says cd argv l) (h : parseCommand cd float json fs argv = .ok ns) {o : Opt}
    (ho : o ≠ .config) {v : Str} (hv : LastValue l o v) :
    ∃ x, ns o = some x ∧ ValueOf cd float o v x := by
  obtain ⟨l', m, hs', -, hd⟩ := (C100_accepted_iff cd float json fs hl argv ns).1 h
  rw [← hs.functional cd hs'] at hd
  obtain ⟨a, b, hab, hb⟩ :=
    (lastValue_dropConfig (m ++ l) ho v).2 (lastValue_append_right (m := m) hv)
  exact hd.given a o v b hab hb

/-- `key` names option `o`: by its name, or by an abbreviation. -/
def KeyNames (key : Str) (o : Opt) : Prop :=
  KeyFor key o ∨ ∃ k, Trimmed (· = '-') key k ∧ Names ("--".toList ++ k) o

theorem FileSays.mem {argv : List Str} {es : List (Str × CfgValue)} {m : List (Opt × Str)}
    (h : FileSays argv es m) {o : Opt} {v : Str} (hm : (o, v) ∈ m) :
    ∃ e ∈ es, KeyNames e.1 o ∧ v ∈ e.2.strings := by
  induction h with
  | nil => simp at hm
  | overridden _ _ _ ih | oddOverridden _ _ _ _ ih | nothing _ _ ih =>
    obtain ⟨e, he, h⟩ := ih hm
    exact ⟨e, by simp [he], h⟩
  | @option key o' s items m hkey _ _ _ ih =>
    rcases List.mem_cons.1 hm with hm | hm
    · cases hm
      exact ⟨_, List.mem_cons_self, .inl hkey, by simp [CfgValue.strings]⟩
    · obtain ⟨e, he, h⟩ := ih hm
      exact ⟨e, by simp [he], h⟩
  | @abbreviated key k o' w items m _ ht _ hn _ _ ih =>
    rcases List.mem_append.1 hm with hm | hm
    · obtain ⟨x, hx, he⟩ := List.mem_map.1 hm
      cases he
      exact ⟨_, List.mem_cons_self, .inr ⟨k, ht, hn⟩, hx⟩
    · obtain ⟨e, he, h⟩ := ih hm
      exact ⟨e, by simp [he], h⟩

/-- The entry that counts. -/
theorem FileSays.last {argv : List Str} {es es' : List (Str × CfgValue)} {key : Str} {w : CfgValue}
    {o : Opt} {m : List (Opt × Str)} (h : FileSays argv (es ++ (key, w) :: es') m)
    (hkey : KeyFor key o) (hg : ¬ Given argv o) (hlater : ∀ e ∈ es', ¬ KeyNames e.1 o) :
    ∃ s, w = .text s ∧ LastValue m o s := by
  induction es generalizing m with
  | nil =>
    have huniq : ∀ o', KeyFor key o' → o' = o := fun o' ho' => by
      have h1 := (keyOption_iff key o').2 ho'
      rw [(keyOption_iff key o).2 hkey] at h1
      cases h1
      rfl
    rw [List.nil_append] at h
    cases h with
    | overridden hk hg' _ => exact absurd (huniq _ hk ▸ hg') hg
    | @option _ o' s _ m hk _ _ hrest =>
      have := huniq _ hk
      subst this
      refine ⟨s, rfl, [], m, rfl, fun w hw => ?_⟩
      obtain ⟨e, he, hn, -⟩ := hrest.mem hw
      exact hlater e he hn
    | oddOverridden hk => exact absurd hkey (hk o)
    | abbreviated hk => exact absurd hkey (hk o)
    | nothing hk => exact absurd hkey (hk o)
  | cons e es ih =>
    rw [List.cons_append] at h
    cases h with
    | overridden _ _ h => exact ih h
    | option _ _ _ h =>
      obtain ⟨s, h1, h2⟩ := ih h
      exact ⟨s, h1, lastValue_cons_of _ h2⟩
    | oddOverridden _ _ _ h => exact ih h
    | abbreviated _ _ _ _ _ h =>
      obtain ⟨s, h1, h2⟩ := ih h
      exact ⟨s, h1, lastValue_append_right h2⟩
    | nothing _ h => exact ih h

/-- The named file. -/
theorem FromFile.named {items : Str → Option (List (Str × CfgValue))} {argv : List Str}
    {l m : List (Opt × Str)} (h : FromFile items argv l m) {p : Str} (hp : LastValue l .config p)
    (hne : p ≠ []) : ∃ es, items p = some es ∧ FileSays argv es m := by
  rcases h with ⟨hno, -⟩ | ⟨p', es, hp', -, hes, hsays⟩
  · exact absurd (hno p hp) hne
  · rw [hp.unique hp']
    exact ⟨es, hes, hsays⟩

/-- **C100** (values from the file).  An option that is not on the command line has the value of the
last entry for it in the named file. -/
theorem C100_file_option (hl : cd.Lawful) {argv : List Str} {l : List (Opt × Str)}
    {ns : Namespace K} (hs : Says cd argv l) (h : parseCommand cd float json fs argv = .ok ns)
    {p text : Str} (hp : LastValue l .config p) (hne : p ≠ []) (htext : fs p = some text)
    {es es' : List (Str × CfgValue)} {key : Str} {w : CfgValue} {o : Opt}
    (hes : configItems cd json text = some (es ++ (key, w) :: es')) (hkey : KeyFor key o)
    (ho : ∀ v, (o, v) ∉ l) (hlater : ∀ e ∈ es', ¬ KeyNames e.1 o) :
    ∃ s x, w = .text s ∧ ns o = some x ∧ ValueOf cd float o s x := by
  obtain ⟨l', m, hs', hf, hd⟩ := (C100_accepted_iff cd float json fs hl argv ns).1 h
  rw [← hs.functional cd hs'] at hd hf
  obtain ⟨es₀, h1, hsays⟩ := hf.named hp hne
  rw [htext, Option.bind_some, hes] at h1
  cases h1
  have hoc : o ≠ .config := by
    rintro rfl
    obtain ⟨a, b, rfl, -⟩ := hp
    exact absurd (by simp) (ho p)
  obtain ⟨s, rfl, hlast⟩ := hsays.last hkey (fun hg => by
    obtain ⟨v, hv⟩ := hs.given cd hg
    exact ho v hv) hlater
  obtain ⟨a, b, hab, hb⟩ := (lastValue_dropConfig (m ++ l) hoc s).2 (lastValue_append_left hlast ho)
  obtain ⟨x, hx⟩ := hd.given a o s b hab hb
  exact ⟨s, x, rfl, hx⟩

/-- **C100** (options nobody gives).  An option that is neither on the command line nor in the file
is unset, so it is not mandatory. -/
theorem C100_unset (hl : cd.Lawful) {argv : List Str} {l : List (Opt × Str)}
    {ns : Namespace K} (hs : Says cd argv l) (h : parseCommand cd float json fs argv = .ok ns)
    {p text : Str} (hp : LastValue l .config p) (hne : p ≠ []) (htext : fs p = some text)
    {es : List (Str × CfgValue)} (hes : configItems cd json text = some es) {o : Opt}
    (ho : ∀ v, (o, v) ∉ l) (hno : ∀ e ∈ es, ¬ KeyNames e.1 o) :
    Unset o (ns o) ∧ ¬ o.Mandatory := by
  obtain ⟨l', m, hs', hf, hd⟩ := (C100_accepted_iff cd float json fs hl argv ns).1 h
  rw [← hs.functional cd hs'] at hd hf
  obtain ⟨es₀, h1, hsays⟩ := hf.named hp hne
  rw [htext, Option.bind_some, hes] at h1
  cases h1
  have hnot : ∀ v, (o, v) ∉ (m ++ l).filter fun e => decide (e.1 ≠ .config) := by
    intro v hv
    rcases List.mem_append.1 (List.mem_of_mem_filter hv) with hv | hv
    · obtain ⟨e, he, hn, -⟩ := hsays.mem hv
      exact hno e he hn
    · exact ho v hv
  refine ⟨hd.unset o hnot, fun hm => ?_⟩
  obtain ⟨v, hv⟩ := hd.mandatory o hm
  exact hnot v hv

theorem Reads.says {argv : List Str} {l : List (Opt × Str)} (h : Reads cd argv l) :
    Says cd argv l ∧ ∀ p ∈ l, p.1 ≠ .config := by
  induction h with
  | nil => exact ⟨.nil, by simp⟩
  | pair hn ho hv _ ih =>
    refine ⟨.pair (.inl hn) ho.1 hv ih.1, fun p hp => ?_⟩
    rcases List.mem_cons.1 hp with rfl | hp
    · exact ho.2
    · exact ih.2 p hp
  | glued hn ho _ ih =>
    refine ⟨.glued (.inl hn) ho.1 ih.1, fun p hp => ?_⟩
    rcases List.mem_cons.1 hp with rfl | hp
    · exact ho.2
    · exact ih.2 p hp

theorem Says.reads {argv : List Str} {l : List (Opt × Str)} (h : Says cd argv l)
    (hc : ∀ p ∈ l, p.1 ≠ .config) : Reads cd argv l := by
  induction h with
  | nil => exact .nil
  | @pair n o v rest l hn ho hv _ ih =>
    have ho' : o ≠ .config := hc (o, v) List.mem_cons_self
    exact .pair (hn.resolve_right fun h => ho' h.2) ⟨ho, ho'⟩ hv
      (ih fun p hp => hc p (by simp [hp]))
  | @glued n o v rest l hn ho _ ih =>
    have ho' : o ≠ .config := hc (o, v) List.mem_cons_self
    exact .glued (hn.resolve_right fun h => ho' h.2) ⟨ho, ho'⟩ (ih fun p hp => hc p (by simp [hp]))
  | @short v rest l _ _ _ _ => exact absurd rfl (hc (.config, v) List.mem_cons_self)

/-- **C100** (no file).  Where no configuration file is named, the files on the disk do not matter:
the command line means what C98 says. -/
theorem C100_no_file (hl : cd.Lawful) {argv : List Str}
    (hno : ∀ l, Says cd argv l → ∀ p ∈ l, p.1 ≠ .config) (ns : Namespace K) :
    parseCommand cd float json fs argv = .ok ns ↔ parseArgs cd float argv = .ok ns := by
  rw [C100_accepted_iff cd float json fs hl, C98_accepted_iff cd float hl]
  have hfilter : ∀ l : List (Opt × Str), (∀ p ∈ l, p.1 ≠ .config) →
      l.filter (fun e => decide (e.1 ≠ .config)) = l := fun l h =>
    List.filter_eq_self.2 fun p hp => by simpa using h p hp
  constructor
  · rintro ⟨l, m, hs, hf, hd⟩
    have hn := hno l hs
    have hm : m = [] := by
      rcases hf with ⟨-, hm⟩ | ⟨p, es, ⟨a, b, rfl, -⟩, -⟩
      · exact hm
      · exact absurd rfl (hn (.config, p) (by simp))
    subst hm
    rw [List.nil_append, hfilter l hn] at hd
    exact ⟨l, hs.reads cd hn, hd⟩
  · rintro ⟨l, hr, hd⟩
    obtain ⟨hs, hn⟩ := hr.says cd
    refine ⟨l, [], hs, .inl ⟨?_, rfl⟩, ?_⟩
    · rintro p ⟨a, b, rfl, -⟩
      exact absurd rfl (hn (.config, p) (by simp))
    · rw [List.nil_append, hfilter l hn]
      exact hd

/-! ## The text of the file -/

/-- **C100** (the text).  A file whose lines are entries `KEY: VALUE` (or `=`, or blanks; the value
plain or in quotes, possibly with a comment behind it), comments, blank lines, sections and
separators is read as those entries, in their order.  Line breaks may be `\n` or `\r\n`; no key is
repeated, no value stands in square brackets. -/
theorem C100_text (hm : Marks cd.isSpace) {text : Str} {lines : List Str} {es : List (Str × Str)}
    (ht : HasLines text lines) (hs : LinesSay cd.isSpace lines es) (hd : (es.map Prod.fst).Nodup)
    (hb : ∀ e ∈ es, e.2.head? ≠ some '[' ∨ e.2.getLast? ≠ some ']') :
    configItems cd json text = some (es.map fun e => (e.1, .text e.2)) := by
  rw [configItems_lines json ht, configLines_says hm json hs [] (by simpa using hd),
    List.nil_append]
  congr 1
  refine List.map_congr_left fun e he => ?_
  unfold entryValue
  rw [if_neg (by
    rintro ⟨h1, h2⟩
    rcases hb e he with h | h
    · exact h h1
    · exact h h2)]

theorem fileSays_options {argv : List Str} {es : List (Str × Str)} {l : List (Opt × Str)}
    (h : List.Forall₂ (fun e q => KeyFor e.1 q.1 ∧ q.2 = e.2) es l)
    (hv : ∀ q ∈ l, q.1 ≠ .help ∧ ¬ Given argv q.1) (m : List (Opt × Str)) :
    FileSays argv (es.map fun e => (e.1, .text e.2)) m ↔ m = l := by
  induction h generalizing m with
  | nil =>
    constructor
    · intro h; cases h; rfl
    · rintro rfl; exact .nil
  | @cons e q es l he _ ih =>
    obtain ⟨key, v⟩ := e
    obtain ⟨o, w⟩ := q
    obtain ⟨hk, hw⟩ := he
    simp only at hk hw
    subst hw
    obtain ⟨ho, hg⟩ := hv (o, w) List.mem_cons_self
    have ih' := ih fun q hq => hv q (by simp [hq])
    have huniq : ∀ o', KeyFor key o' → o' = o := fun o' ho' => by
      have h1 := (keyOption_iff key o').2 ho'
      rw [(keyOption_iff key o).2 hk] at h1
      cases h1
      rfl
    constructor
    · intro h
      rw [List.map_cons] at h
      cases h with
      | overridden hk' hg' _ => exact absurd (huniq _ hk' ▸ hg') hg
      | option hk' _ _ hrest => rw [huniq _ hk', (ih' _).1 hrest]
      | oddOverridden hk' => exact absurd hk (hk' o)
      | abbreviated hk' => exact absurd hk (hk' o)
    · rintro rfl
      exact .option hk ho hg ((ih' _).2 rfl)

theorem documented_items (hl : cd.Lawful) {p text : Str} (hp : Plain cd p)
    (hne : p ≠ []) (hfile : fs p = some text) {es : List (Str × Str)}
    (hitems : configItems cd json text = some (es.map fun e => (e.1, .text e.2)))
    {l : List (Opt × Str)}
    (hopt : List.Forall₂ (fun e q => KeyFor e.1 q.1 ∧ q.2 = e.2) es l)
    (hv : ∀ q ∈ l, q.1.Valued) (ns : Namespace K) :
    parseCommand cd float json fs ["-c".toList, p] = .ok ns ↔ Denotes cd float l ns := by
  have hsays : Says cd ["-c".toList, p] [(.config, p)] :=
    .pair (.inr ⟨rfl, rfl⟩) (by simp) hp .nil
  have hlast : LastValue [(.config, p)] .config p := ⟨[], [], rfl, by simp⟩
  have hng : ∀ q ∈ l, q.1 ≠ .help ∧ ¬ Given ["-c".toList, p] q.1 := by
    intro q hq
    refine ⟨(hv q hq).1, fun hg => ?_⟩
    obtain ⟨v, hv'⟩ := hsays.given cd hg
    simp only [List.mem_singleton, Prod.mk.injEq] at hv'
    exact (hv q hq).2 hv'.1
  have hfilter : (l ++ [(Opt.config, p)]).filter (fun e => decide (e.1 ≠ .config)) = l := by
    rw [List.filter_append, List.filter_eq_self.2 fun q hq => by simpa using (hv q hq).2]
    simp
  rw [C100_accepted_iff cd float json fs hl]
  constructor
  · rintro ⟨l', m, hs', hf, hd'⟩
    rw [← hsays.functional cd hs'] at hf hd'
    obtain ⟨es', h1, h2⟩ := hf.named hlast hne
    rw [hfile, Option.bind_some, hitems] at h1
    cases h1
    rw [(fileSays_options hopt hng m).1 h2, hfilter] at hd'
    exact hd'
  · intro hd'
    refine ⟨_, l, hsays, .inr ⟨p, _, hlast, hne, ?_, (fileSays_options hopt hng l).2 rfl⟩, ?_⟩
    · simp only [hfile, Option.bind_some, hitems]
    · rw [hfilter]
      exact hd'

/-- **C100** (the documented use, README.md:94, 166-175).  `pyftle -c FILE`, where the lines of the
file are entries for options: the result is the meaning of these options. -/
theorem C100_documented (hl : cd.Lawful) (hm : Marks cd.isSpace) {p text : Str} (hp : Plain cd p)
    (hne : p ≠ []) (hfile : fs p = some text) {lines : List Str} {es : List (Str × Str)}
    (ht : HasLines text lines) (hs : LinesSay cd.isSpace lines es) (hd : (es.map Prod.fst).Nodup)
    (hb : ∀ e ∈ es, e.2.head? ≠ some '[' ∨ e.2.getLast? ≠ some ']') {l : List (Opt × Str)}
    (hopt : List.Forall₂ (fun e q => KeyFor e.1 q.1 ∧ q.2 = e.2) es l)
    (hv : ∀ q ∈ l, q.1.Valued) (ns : Namespace K) :
    parseCommand cd float json fs ["-c".toList, p] = .ok ns ↔ Denotes cd float l ns :=
  documented_items cd float json fs hl hp hne hfile (C100_text cd json hm ht hs hd hb) hopt hv ns

/-! ## C101: mistakes in the file -/

theorem FileSays.entry {argv : List Str} {es : List (Str × CfgValue)} {m : List (Opt × Str)}
    (h : FileSays argv es m) {key : Str} {v : CfgValue} (hm : (key, v) ∈ es) :
    (∃ o, KeyNames key o) ∨ v = .list [] ∨
      ∃ k, Trimmed (· = '-') key k ∧ Mentions argv ("--".toList ++ k) := by
  induction h with
  | nil => simp at hm
  | overridden hk _ _ ih =>
    rcases List.mem_cons.1 hm with hm | hm
    · cases hm; exact .inl ⟨_, .inl hk⟩
    · exact ih hm
  | option hk _ _ _ ih =>
    rcases List.mem_cons.1 hm with hm | hm
    · cases hm; exact .inl ⟨_, .inl hk⟩
    · exact ih hm
  | oddOverridden _ ht hmen _ ih =>
    rcases List.mem_cons.1 hm with hm | hm
    · cases hm; exact .inr (.inr ⟨_, ht, hmen⟩)
    · exact ih hm
  | abbreviated _ ht _ hn _ _ ih =>
    rcases List.mem_cons.1 hm with hm | hm
    · cases hm; exact .inl ⟨_, .inr ⟨_, ht, hn⟩⟩
    · exact ih hm
  | nothing _ _ ih =>
    rcases List.mem_cons.1 hm with hm | hm
    · cases hm; exact .inr (.inl rfl)
    · exact ih hm

theorem FileSays.list {argv : List Str} {es : List (Str × CfgValue)} {m : List (Opt × Str)}
    (h : FileSays argv es m) {key : Str} {v : List Str} (hm : (key, .list v) ∈ es) {o : Opt}
    (hk : KeyFor key o) : Given argv o := by
  have huniq : ∀ o', KeyFor key o' → o' = o := fun o' ho' => by
    have h1 := (keyOption_iff key o').2 ho'
    rw [(keyOption_iff key o).2 hk] at h1
    cases h1
    rfl
  induction h with
  | nil => simp at hm
  | overridden hk' hg _ ih =>
    rcases List.mem_cons.1 hm with hm | hm
    · cases hm; exact huniq _ hk' ▸ hg
    · exact ih hm
  | option _ _ _ _ ih =>
    rcases List.mem_cons.1 hm with hm | hm
    · cases hm
    · exact ih hm
  | oddOverridden hk' _ _ _ ih =>
    rcases List.mem_cons.1 hm with hm | hm
    · cases hm; exact absurd hk (hk' o)
    · exact ih hm
  | abbreviated hk' _ _ _ _ _ ih =>
    rcases List.mem_cons.1 hm with hm | hm
    · cases hm; exact absurd hk (hk' o)
    · exact ih hm
  | nothing hk' _ ih =>
    rcases List.mem_cons.1 hm with hm | hm
    · cases hm; exact absurd hk (hk' o)
    · exact ih hm

/-- **C101** (what holds).  In an accepted run every key of the file is the name of an option, or an
abbreviation of one, or its value is the empty list, or `--KEY` stands on the command line (within a
value).  Everything else stops the program. -/
theorem C101_unknown_key_partial (hl : cd.Lawful) {argv : List Str} {l : List (Opt × Str)}
    {ns : Namespace K} (hs : Says cd argv l) (h : parseCommand cd float json fs argv = .ok ns)
    {p text : Str} (hp : LastValue l .config p) (hne : p ≠ []) (htext : fs p = some text)
    {es : List (Str × CfgValue)} (hes : configItems cd json text = some es) {key : Str}
    {v : CfgValue} (hm : (key, v) ∈ es) :
    (∃ o, KeyNames key o) ∨ v = .list [] ∨
      ∃ k, Trimmed (· = '-') key k ∧ Mentions argv ("--".toList ++ k) := by
  obtain ⟨l', m, hs', hf, hd⟩ := (C100_accepted_iff cd float json fs hl argv ns).1 h
  rw [← hs.functional cd hs'] at hf
  obtain ⟨es₀, h1, hsays⟩ := hf.named hp hne
  rw [htext, Option.bind_some, hes] at h1
  cases h1
  exact hsays.entry hm

/-- **C101** (lists).  A value in square brackets, the YAML notation for lists, is rejected for
every option that is not on the command line: `flow_grid_shape: [128, 128]` stops the program. -/
theorem C101_list_rejected (hl : cd.Lawful) {argv : List Str} {l : List (Opt × Str)}
    (hs : Says cd argv l) {p text : Str} (hp : LastValue l .config p) (hne : p ≠ [])
    (htext : fs p = some text) {es : List (Str × CfgValue)}
    (hes : configItems cd json text = some es) {key : Str} {v : List Str}
    (hm : (key, .list v) ∈ es) {o : Opt} (hk : KeyFor key o) (hg : ¬ Given argv o)
    (ns : Namespace K) : parseCommand cd float json fs argv ≠ .ok ns := by
  intro h
  obtain ⟨l', m, hs', hf, hd⟩ := (C100_accepted_iff cd float json fs hl argv ns).1 h
  rw [← hs.functional cd hs'] at hf
  obtain ⟨es₀, h1, hsays⟩ := hf.named hp hne
  rw [htext, Option.bind_some, hes] at h1
  cases h1
  exact hg (hsays.list hm hk)

theorem FileSays.replace {argv : List Str} {es es' : List (Str × CfgValue)} {key : Str}
    {v v' : CfgValue} {o : Opt} {m : List (Opt × Str)} (hk : KeyFor key o) (hg : Given argv o)
    (h : FileSays argv (es ++ (key, v) :: es') m) : FileSays argv (es ++ (key, v') :: es') m := by
  have huniq : ∀ o', KeyFor key o' → o' = o := fun o' ho' => by
    have h1 := (keyOption_iff key o').2 ho'
    rw [(keyOption_iff key o).2 hk] at h1
    cases h1
    rfl
  induction es generalizing m with
  | nil =>
    rw [List.nil_append] at h ⊢
    cases h with
    | overridden _ _ h => exact .overridden hk hg h
    | option hk' _ hg' _ => exact absurd (huniq _ hk' ▸ hg) hg'
    | oddOverridden hk' => exact absurd hk (hk' o)
    | abbreviated hk' => exact absurd hk (hk' o)
    | nothing hk' => exact absurd hk (hk' o)
  | cons e es ih =>
    rw [List.cons_append] at h ⊢
    cases h with
    | overridden h1 h2 h => exact .overridden h1 h2 (ih h)
    | option h1 h2 h3 h => exact .option h1 h2 h3 (ih h)
    | oddOverridden h1 h2 h3 h => exact .oddOverridden h1 h2 h3 (ih h)
    | abbreviated h1 h2 h3 h4 h5 h => exact .abbreviated h1 h2 h3 h4 h5 (ih h)
    | nothing h1 h => exact .nothing h1 (ih h)

/-- **C101** (what holds).  If the command line has an option under its full name, the value of an
entry for it in the file does not matter, not even whether it is valid. -/
theorem C101_replaced_partial (hl : cd.Lawful) {argv : List Str} {l : List (Opt × Str)}
    (hs : Says cd argv l) {p text text' : Str} (hp : LastValue l .config p) (hne : p ≠ [])
    {fs' : Str → Option Str} (htext : fs p = some text) (htext' : fs' p = some text')
    {es es' : List (Str × CfgValue)} {key : Str} {v v' : CfgValue} {o : Opt}
    (hes : configItems cd json text = some (es ++ (key, v) :: es'))
    (hes' : configItems cd json text' = some (es ++ (key, v') :: es')) (hk : KeyFor key o)
    (hg : Given argv o) (ns : Namespace K) :
    parseCommand cd float json fs argv = .ok ns ↔ parseCommand cd float json fs' argv = .ok ns := by
  have key' : ∀ {fs fs' : Str → Option Str} {text text' : Str} {v v' : CfgValue},
      fs p = some text → fs' p = some text' →
      configItems cd json text = some (es ++ (key, v) :: es') →
      configItems cd json text' = some (es ++ (key, v') :: es') →
      parseCommand cd float json fs argv = .ok ns → parseCommand cd float json fs' argv = .ok ns := by
    intro fs fs' text text' v v' h1 h2 h3 h4 h
    obtain ⟨l', m, hs', hf, hd⟩ := (C100_accepted_iff cd float json fs hl argv ns).1 h
    rw [← hs.functional cd hs'] at hf hd
    obtain ⟨es₀, h5, hsays⟩ := hf.named hp hne
    rw [h1, Option.bind_some, h3] at h5
    cases h5
    refine (C100_accepted_iff cd float json fs' hl argv ns).2
      ⟨l, m, hs, .inr ⟨p, _, hp, hne, ?_, hsays.replace (v' := v') hk hg⟩, hd⟩
    simp only [h2, Option.bind_some, h4]
  exact ⟨key' htext htext' hes hes', key' htext' htext hes' hes⟩

end

/-! ## Examples -/

theorem asciiData_marks : Marks asciiData.isSpace := by
  unfold Marks
  decide

/-- A reading of numbers for the examples. -/
def cfgFloat (s : Str) : Option ℚ :=
  if s = "0.1".toList then some (1 / 10) else if s = "5".toList then some 5 else none

/-- A reading of lists for the examples: `[]` only. -/
def cfgJson (s : Str) : List Str := if s = "[]".toList then [] else [s]

/-- A text with these lines. -/
def cfgText (lines : List String) : Str := lines.flatMap fun l => l.toList ++ ['\n']

/-- config.yaml:1-12. -/
def cfgRepo : Str := cfgText ["experiment_name: \"experiment\"",
  "list_velocity_files: \"path/to/file.txt\"", "list_coordinate_files: \"path/to/file.txt\"",
  "list_particle_files: \"path/to/file.txt\"", "snapshot_timestep: 0.1", "flow_map_period: 5",
  "integrator: rk4", "interpolator: cubic", "num_processes: 8", "output_format: \"vtk\"",
  "flow_grid_shape: 128, 128 , 256  # comment this line for unstructured data",
  "particles_grid_shape: 128, 128, 256  # comment this line for unstructured data"]

/-- A shorter file: what is mandatory, and these lines. -/
def cfgShort (lines : List String) : Str := cfgText (["experiment_name: e",
  "list_velocity_files = v", "list_coordinate_files c", "--list_particle_files:p",
  "snapshot_timestep: 0.1", "flow_map_period: '5'"] ++ lines)

/-- A file system with this file only, under the name `f`. -/
def cfgFiles (text : Str) (p : Str) : Option Str := if p = ['f'] then some text else none

/-- An attribute of the result. -/
def cfgResult {β : Type} (text : Str) (argv : List Str) (f : Namespace ℚ → Option β) :
    Option β :=
  match parseCommand asciiData cfgFloat cfgJson (cfgFiles text) argv with
  | .error _ => none
  | .ok ns => f ns

/-- How the program ends. -/
def cfgEnds (text : Str) (argv : List Str) : Option Stop :=
  match parseCommand asciiData cfgFloat cfgJson (cfgFiles text) argv with
  | .error e => some e
  | .ok _ => none

/-- `pyftle -c f`. -/
def cfgRun : List Str := ["-c".toList, ['f']]

-- the file of the repository
example : cfgResult cfgRepo cfgRun (fun ns => some
    (decide ((show Option Str from ns .experimentName) = some "experiment".toList) &&
    decide ((show Option Str from ns .listVelocityFiles) = some "path/to/file.txt".toList) &&
    decide ((show Option ℚ from ns .snapshotTimestep) = some (1 / 10)) &&
    decide ((show Option Str from ns .integrator) = some "rk4".toList) &&
    decide ((show Option ℤ from ns .numProcesses) = some 8) &&
    decide ((show Option Str from ns .outputFormat) = some "vtk".toList) &&
    decide ((show Option (List ℤ) from ns .flowGridShape) = some [128, 128, 256]))) =
      some true := by
  decide +kernel

-- the command line wins, in any spelling; other ways to name the file
example : cfgResult (β := Str) (cfgShort ["integrator: rk4"]) (cfgRun ++ ["--integ=euler".toList])
      (· .integrator) = some "euler".toList ∧
    cfgResult (β := Str) (cfgShort ["integrator: rk4"])
      ["--integrator".toList, "ab2".toList, "-cf".toList] (· .integrator) = some "ab2".toList ∧
    cfgResult (β := Str) (cfgShort ["integrator: rk4"]) ["--conf=f".toList] (· .integrator) =
      some "rk4".toList := by
  refine ⟨?_, ?_, ?_⟩ <;> decide +kernel

-- no such file, a line that cannot be read, an unknown key, a list, missing options
example : cfgEnds (cfgShort []) ["-c".toList, ['g']] = some (.exit 2) ∧
    cfgEnds (cfgShort [": x"]) cfgRun = some (.exit 2) ∧
    cfgEnds (cfgShort ["speed: 1"]) cfgRun = some (.exit 2) ∧
    cfgEnds (cfgShort ["flow_grid_shape: [3, 4]"]) cfgRun = some (.exit 2) ∧
    cfgEnds (cfgText ["experiment_name: e"]) cfgRun = some (.exit 2) ∧
    cfgEnds (cfgShort []) cfgRun = none := by
  refine ⟨?_, ?_, ?_, ?_, ?_, ?_⟩ <;> decide +kernel

-- the file is not read as YAML: `;` behind a blank starts a comment, a repeated key is no error
example : cfgResult (β := Str) (cfgShort ["experiment_name: a ; b"]) cfgRun
    (· .experimentName) = some "a".toList := by decide +kernel

/-- **C101** fails: a key that is no option does not stop the program.  An abbreviation is taken for
the option, and an entry with an empty list is passed over. -/
theorem C101_unknown_key_fails :
    cfgResult (β := Str) (cfgShort ["integ: euler"]) cfgRun (· .integrator) =
      some "euler".toList ∧
    cfgEnds (cfgShort ["speed: []"]) cfgRun = none ∧
    (∀ o, ¬ KeyFor "integ".toList o) ∧ ∀ o, ¬ KeyNames "speed".toList o := by
  have hk : ∀ key o, KeyFor key o → keyOption key = some o := fun key o => (keyOption_iff key o).2
  have hs : Trimmed (· = '-') "speed".toList "speed".toList :=
    ⟨[], [], by simp, by simp, by simp, by simp, by simp⟩
  refine ⟨by decide +kernel, by decide +kernel, fun o ho => ?_, ?_⟩
  · have := hk _ o ho
    rw [show keyOption "integ".toList = none by decide +kernel] at this
    cases this
  · rintro o (ho | ⟨k, hk', hn⟩)
    · have := hk _ o ho
      rw [show keyOption "speed".toList = none by decide +kernel] at this
      cases this
    · have h1 := trimmed_dash_eq hk'
      rw [trimmed_dash_eq hs] at h1
      rw [← h1] at hn
      have h2 : ∀ o ∈ Opt.all, ("--".toList ++ "speed".toList).isPrefixOf o.name = false := by
        decide +kernel
      have h3 := List.isPrefixOf_iff_prefix.2 hn.prefix
      rw [h2 o (by cases o <;> decide)] at h3
      cases h3

/-- **C101** fails: an entry that the command line replaces can stop the program, if the option is
abbreviated there. -/
theorem C101_replaced_fails :
    cfgEnds (cfgShort ["num_processes: two"]) (cfgRun ++ ["--num_processes".toList, ['2']]) = none ∧
    cfgEnds (cfgShort ["num_processes: two"]) (cfgRun ++ ["--num_proc".toList, ['2']]) =
      some (.exit 2) ∧
    cfgEnds (cfgShort ["num_processes: 1"]) (cfgRun ++ ["--num_proc".toList, ['2']]) = none := by
  refine ⟨?_, ?_, ?_⟩ <;> decide +kernel

/-- A line with a key, a value and a comment, as in the file of the repository. -/
theorem cfgEntry : Entry asciiData.isSpace "flow_grid_shape: 128, 256  # comment".toList
    "flow_grid_shape".toList "128, 256".toList := by
  refine ⟨⟨by simp, by simp [asciiData], by simp⟩, [], ": ".toList, "128, 256".toList,
    "  # comment".toList, by simp, by simp [Blank], ?_, .plain ⟨?_, by simp [asciiData], ?_⟩, ?_⟩
  · exact .sign (a := []) (c := ':') (b := [' ']) (.inl rfl) (by simp [Blank])
      (by simp [Blank, asciiData])
  · exact ⟨'1', "28, 256".toList, by simp, by simp [asciiData]⟩
  · intro a s c b h _
    have hc : c ∈ "128, 256".toList := by rw [h]; simp
    constructor <;> rintro rfl <;> simp at hc
  · exact .inr ⟨"  ".toList, '#', " comment".toList, by simp, by simp,
      by simp [Blank, asciiData], .inr rfl⟩

/-- A quoted value. -/
theorem cfgQuoted : Entry asciiData.isSpace "output_format = \"vtk\"".toList
    "output_format".toList "vtk".toList := by
  refine ⟨⟨by simp, by simp [asciiData], by simp⟩, [], " = ".toList, "\"vtk\"".toList, [], by simp,
    by simp [Blank], ?_, ?_, .inl (by simp [Blank])⟩
  · exact .sign (a := [' ']) (c := '=') (b := [' ']) (.inr rfl) (by simp [Blank, asciiData])
      (by simp [Blank, asciiData])
  · exact .quoted (v := "vtk".toList) (q := '"') (.inr rfl) (by simp) (by simp)

/-- A text with these two lines and a comment meets the hypotheses of `C100_text`. -/
example (json : Str → List Str) : configItems asciiData json
    ("flow_grid_shape: 128, 256  # comment".toList ++ "\r\n\r\n# comment\r\n".toList ++
        "output_format = \"vtk\"".toList) =
      some [("flow_grid_shape".toList, .text "128, 256".toList),
        ("output_format".toList, .text "vtk".toList)] := by
  refine C100_text asciiData json asciiData_marks
    (lines := ["flow_grid_shape: 128, 256  # comment".toList, [], "# comment".toList,
      "output_format = \"vtk\"".toList])
    (es := [("flow_grid_shape".toList, "128, 256".toList),
      ("output_format".toList, "vtk".toList)]) ⟨by simp, .inr (by simp)⟩ ?_ (by simp) (by simp)
  exact .entry cfgEntry (.silent (.inl (by simp [Blank])) (.silent (.inr ⟨[], '#' :: " comment".toList, by simp,
    by simp [Blank], .inl ⟨_, rfl⟩⟩) (.entry cfgQuoted .nil)))

/-- The documented use with one entry: accepted only if the entry alone has a meaning (it has not,
mandatory options are missing). -/
example (fs : Str → Option Str) (json : Str → List Str) (ns : Namespace ℚ)
    (h : fs ['f'] = some "output_format = \"vtk\"".toList) :
    parseCommand asciiData cfgFloat json fs ["-c".toList, ['f']] = .ok ns ↔
      Denotes asciiData cfgFloat [(.outputFormat, "vtk".toList)] ns := by
  refine C100_documented asciiData cfgFloat json fs asciiData_lawful asciiData_marks
    (.inl (by decide)) (by simp) h (lines := ["output_format = \"vtk\"".toList])
    (es := [("output_format".toList, "vtk".toList)]) ⟨by simp, .inl (by simp)⟩
    (.entry cfgQuoted .nil) (by simp) (by simp)
    (.cons ⟨.inr (by decide), rfl⟩ .nil) (by simp [Opt.Valued]) ns

/-- The hypotheses of `C100_override` and `C100_file_option`: the line `-c f --integ=euler` says
that the file is `f` and the integrator `euler`; the output format stands in the file only. -/
example : ∃ l ns, Says asciiData (cfgRun ++ ["--integ=euler".toList]) l ∧
    parseCommand asciiData cfgFloat cfgJson (cfgFiles (cfgShort ["output_format: vtk"]))
      (cfgRun ++ ["--integ=euler".toList]) = .ok ns ∧
    LastValue l .integrator "euler".toList ∧ LastValue l .config ['f'] ∧
    (∀ v, (Opt.outputFormat, v) ∉ l) ∧
    ∃ es, configItems asciiData cfgJson (cfgShort ["output_format: vtk"]) =
        some (es ++ [("output_format".toList, .text "vtk".toList)]) := by
  have hn : Names "--integ".toList .integrator :=
    ⟨by decide, fun o => by
      have : ∀ o ∈ Opt.all, "--integ".toList.isPrefixOf o.name = true ↔ o = .integrator := by
        decide +kernel
      rw [← List.isPrefixOf_iff_prefix]
      exact this o (by cases o <;> decide)⟩
  have hs : Says asciiData (cfgRun ++ ["--integ=euler".toList])
      [(.config, ['f']), (.integrator, "euler".toList)] :=
    .pair (.inr ⟨rfl, rfl⟩) (by simp) (.inl (by decide))
      (.glued (n := "--integ".toList) (v := "euler".toList) (.inl hn) (by simp) .nil)
  have hitems : configItems asciiData cfgJson (cfgShort ["output_format: vtk"]) =
      some (((configItems asciiData cfgJson (cfgShort ["output_format: vtk"])).getD []).take 6 ++
        [("output_format".toList, .text "vtk".toList)]) := by decide +kernel
  cases h : parseCommand asciiData cfgFloat cfgJson (cfgFiles (cfgShort ["output_format: vtk"]))
      (cfgRun ++ ["--integ=euler".toList]) with
  | error e =>
    have h2 : cfgEnds (cfgShort ["output_format: vtk"]) (cfgRun ++ ["--integ=euler".toList]) = none := by
      decide +kernel
    unfold cfgEnds at h2
    rw [h] at h2
    cases h2
  | ok ns =>
    exact ⟨_, ns, hs, rfl, ⟨[(.config, ['f'])], [], rfl, by simp⟩, ⟨[], _, rfl, by simp⟩, by simp, _, hitems⟩

end Verif
