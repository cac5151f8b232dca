import Verif.Lemmas.Args

/-!
# C98: what the command line means
-/

namespace Verif

section
variable {K : Type} (cd : CharData) (float : Str → Option K)

/-- **C98**.  The parser accepts a command line with the result `ns` exactly if the line is a
sequence of `NAME VALUE` and `NAME=VALUE` (`Reads`, with unambiguous abbreviations of the names)
in which every value is valid, no mandatory option is missing, and `ns` holds for every option its
last value. -/
theorem C98_accepted_iff (hl : cd.Lawful) (argv : List Str) (ns : Namespace K) :
    parseArgs cd float argv = .ok ns ↔ ∃ l, Reads cd argv l ∧ Denotes cd float l ns := by
  constructor
  · intro h
    unfold parseArgs at h
    by_cases hcfg : namesConfig cd argv = true
    · rw [if_pos hcfg] at h; cases h
    rw [if_neg hcfg] at h
    cases hc : classify cd argv with
    | error e => rw [hc] at h; cases h
    | ok toks =>
      simp only [hc] at h
      cases hcons : consume cd float toks ⟨Namespace.defaults K, [], 0⟩ with
      | error e => simp only [hcons] at h; cases h
      | ok st =>
        rw [hcons] at h
        simp only at h
        split_ifs at h with hreq hext
        cases h
        obtain ⟨h1, h2⟩ := reads_of_consume cd float argv toks _ st hc hcons
          (by simpa using hext)
        have hcfg' : ∀ s ∈ argv, ∀ t, parseOptional cd s = .ok (some t) →
            t.opt ≠ some .config := by
          intro s hs t ht hopt
          apply hcfg
          unfold namesConfig
          have htake : argv.takeWhile (fun s => decide (s ≠ "--".toList)) = argv := by
            have : ∀ l : List Str, (∀ s ∈ l, s ≠ "--".toList) →
                l.takeWhile (fun s => decide (s ≠ "--".toList)) = l := by
              intro l hl
              induction l with
              | nil => rfl
              | cons a l ih =>
                rw [List.takeWhile_cons_of_pos (by simpa using hl a (by simp)),
                  ih fun s hs => hl s (by simp [hs])]
            exact this argv fun s hs => (h1 s hs).1
          have n1 : argv.contains "-h".toList = false := by
            rw [List.contains_eq_mem, decide_eq_false_iff_not]
            exact fun hm => (h1 _ hm).2 _ (parseOptional_h cd) rfl
          have n2 : argv.contains "--help".toList = false := by
            rw [List.contains_eq_mem, decide_eq_false_iff_not]
            exact fun hm => (h1 _ hm).2 _ (parseOptional_help cd) rfl
          rw [htake, n1, n2, Bool.or_false, Bool.not_false, Bool.true_and, List.any_eq_true]
          exact ⟨s, hs, by rw [ht]; simpa using hopt⟩
        obtain ⟨l, hr⟩ := h2 hcfg'
        obtain ⟨toks', hc', hrun⟩ := hr.run cd float
        rw [hc] at hc'
        cases hc'
        rw [hrun] at hcons
        have hv := storeAll_valid cd float l _ _ hcons
        obtain ⟨st', e1, -, e3, e4, e5⟩ := storeAll_ok cd float l hv ⟨Namespace.defaults K, [], 0⟩
        rw [hcons] at e1
        cases e1
        refine ⟨l, hr, ?_, ?_, ?_, ?_⟩
        · intro p hp
          obtain ⟨x, hx⟩ := hv p hp
          exact ⟨x, (convert_iff cd float hl _ _ _).1 hx⟩
        · intro o ho
          by_contra hne
          apply hreq
          refine (required_iff st.seen).2 ⟨o, ho, fun hm => ?_⟩
          rcases (e3 o).1 hm with hm | hm
          · simp at hm
          · exact hne hm
        · intro l₁ o v l₂ hl' hlast
          obtain ⟨x, hx, hcv⟩ := e5 l₁ o v l₂ hl' hlast
          exact ⟨x, hx, (convert_iff cd float hl _ _ _).1 hcv⟩
        · intro o ho
          exact (unset_defaults o _).2 (e4 o ho)
  · rintro ⟨l, hr, hd⟩
    obtain ⟨toks, hc, hrun⟩ := hr.run cd float
    have hv : ∀ p ∈ l, ∃ x, convert cd float p.1 p.2 = .ok x := by
      intro p hp
      obtain ⟨x, hx⟩ := hd.valid p hp
      exact ⟨x, (convert_iff cd float hl _ _ _).2 hx⟩
    obtain ⟨st', e1, e2, e3, e4, e5⟩ := storeAll_ok cd float l hv ⟨Namespace.defaults K, [], 0⟩
    have hreq : ¬ allOptions.any (fun o => o.required && !st'.seen.contains o) = true := by
      rw [required_iff]
      rintro ⟨o, ho, hs⟩
      exact hs ((e3 o).2 (.inr (hd.mandatory o ho)))
    have hns : st'.ns = ns := by
      funext o
      by_cases ho : ∃ v, (o, v) ∈ l
      · obtain ⟨l₁, v, l₂, hl', hlast⟩ := last_occurrence l o ho
        obtain ⟨x, hx, hcv⟩ := e5 l₁ o v l₂ hl' hlast
        obtain ⟨y, hy, hval⟩ := hd.given l₁ o v l₂ hl' hlast
        rw [hx, hy]
        have := (convert_iff cd float hl o v y).2 hval
        rw [hcv] at this
        cases this
        rfl
      · have ho' : ∀ v, (o, v) ∉ l := fun v hv => ho ⟨v, hv⟩
        rw [e4 o ho']
        exact ((unset_defaults o _).1 (hd.unset o ho')).symm
    unfold parseArgs
    rw [hr.namesConfig]
    simp only [Bool.false_eq_true, if_false, hc, hrun, e1]
    rw [if_neg hreq, if_neg (by simpa using e2), hns]

/-- **C98** (other outcomes).  Every other command line ends the program: with status 2, or with
status 0 if `-h...` or an abbreviation of `--help` occurs; or a configuration file is named.  In
particular no exception of a conversion escapes. -/
theorem C98_rejected (argv : List Str) (e : Stop) (h : parseArgs cd float argv = .error e) :
    e = .exit 2 ∨
    (e = .exit 0 ∧ ∃ s ∈ argv, "-h".toList <+: s ∨ Names s .help) ∨
    (e = .configFile ∧ ∃ s ∈ argv, "-c".toList <+: s ∨ Names s .config ∨
      ∃ n x, Names n .config ∧ s = n ++ '=' :: x) := by
  unfold parseArgs at h
  by_cases hcfg : namesConfig cd argv = true
  · rw [if_pos hcfg] at h
    cases h
    refine .inr (.inr ⟨rfl, ?_⟩)
    unfold namesConfig at hcfg
    rw [Bool.and_eq_true, List.any_eq_true] at hcfg
    obtain ⟨-, s, hs, hm⟩ := hcfg
    refine ⟨s, (List.takeWhile_prefix _).subset hs, ?_⟩
    split at hm
    · rename_i t ht
      rcases optTuple_cases cd ht (of_decide_eq_true hm) with ⟨-, h⟩ | ⟨h, -⟩ | ⟨-, h⟩
      · cases h
      · exact .inl h
      · rcases h with ⟨-, h⟩ | ⟨n, x, -, h⟩
        · exact .inr (.inl h)
        · exact .inr (.inr ⟨n, x, h⟩)
    · cases hm
  rw [if_neg hcfg] at h
  cases hc : classify cd argv with
  | error e' =>
    rw [hc] at h
    cases h
    exact .inl (classify_error cd argv _ hc)
  | ok toks =>
    simp only [hc] at h
    cases hcons : consume cd float toks ⟨Namespace.defaults K, [], 0⟩ with
    | error e' =>
      rw [hcons] at h
      cases h
      rcases consume_error cd float toks _ _ hcons with h | ⟨h, t, ht, hopt, hsh⟩
      · exact .inl h
      · refine .inr (.inl ⟨h, ?_⟩)
        obtain ⟨s, hs, hp⟩ := classify_mem cd hc ht
        refine ⟨s, hs, ?_⟩
        rcases optTuple_cases cd hp hopt with ⟨h, -⟩ | ⟨-, h⟩ | ⟨h1, h⟩
        · exact .inl h
        · cases h
        · rcases h with ⟨-, h⟩ | ⟨n, x, h2, -⟩
          · exact .inr h
          · rcases hsh with h3 | h3
            · rw [h1] at h3; cases h3
            · rw [h2] at h3; cases h3
    | ok st =>
      rw [hcons] at h
      simp only at h
      split_ifs at h <;> cases h <;> exact .inl rfl

theorem Reads.append {argv argv' : List Str} {l l' : List (Opt × Str)} (h : Reads cd argv l)
    (h' : Reads cd argv' l') : Reads cd (argv ++ argv') (l ++ l') := by
  induction h with
  | nil => exact h'
  | pair hn ho hv _ ih => exact .pair hn ho hv ih
  | glued hn ho _ ih => exact .glued hn ho ih

theorem Reads.functional {argv : List Str} {l l' : List (Opt × Str)} (h : Reads cd argv l)
    (h' : Reads cd argv l') : l = l' := by
  induction h generalizing l' with
  | nil => cases h'; rfl
  | @pair n o v rest l hn ho hv _ ih =>
    cases h' with
    | pair hn' ho' hv' hr => rw [hn.unique hn', ih hr]
    | glued hn' ho' hr => exact absurd (by simp) hn.no_eq
  | @glued n o v rest l hn ho _ ih =>
    generalize hs : n ++ '=' :: v = s at h'
    cases h' with
    | pair hn' ho' hv' hr =>
      subst hs
      exact absurd (by simp) hn'.no_eq
    | @glued n' o' v' _ l'' hn' ho' hr =>
      have h1 := partitionEq_at n v hn.no_eq
      rw [hs, partitionEq_at n' v' hn'.no_eq] at h1
      simp only [Prod.mk.injEq, Option.some.injEq] at h1
      obtain ⟨rfl, rfl⟩ := h1
      rw [hn.unique hn', ih hr]

/-- **C98** (spelling).  An abbreviated name with a separate value and the full name with `=` mean
the same, whatever stands before and behind. -/
theorem C98_spelling (hl : cd.Lawful) {pre post : List Str} {l₁ l₂ : List (Opt × Str)} {n v : Str}
    {o : Opt} (hpre : Reads cd pre l₁) (hpost : Reads cd post l₂) (hn : Names n o)
    (ho : o.Valued) (hv : Plain cd v) (ns : Namespace K) :
    parseArgs cd float (pre ++ n :: v :: post) = .ok ns ↔
      parseArgs cd float (pre ++ (o.name ++ '=' :: v) :: post) = .ok ns := by
  have h1 : Reads cd (pre ++ n :: v :: post) (l₁ ++ (o, v) :: l₂) :=
    hpre.append cd (.pair hn ho hv hpost)
  have h2 : Reads cd (pre ++ (o.name ++ '=' :: v) :: post) (l₁ ++ (o, v) :: l₂) :=
    hpre.append cd (.glued o.names_name ho hpost)
  rw [C98_accepted_iff cd float hl, C98_accepted_iff cd float hl]
  constructor
  · rintro ⟨l, hr, hd⟩
    rw [hr.functional cd h1] at hd
    exact ⟨_, h2, hd⟩
  · rintro ⟨l, hr, hd⟩
    rw [hr.functional cd h2] at hd
    exact ⟨_, h1, hd⟩

/-- With every option given at most once, the pair itself is the last occurrence. -/
theorem last_of_nodup {l : List (Opt × Str)} (hnd : (l.map Prod.fst).Nodup) {o : Opt} {v : Str}
    (hm : (o, v) ∈ l) : ∃ l₁ l₂, l = l₁ ++ (o, v) :: l₂ ∧ ∀ w, (o, w) ∉ l₂ := by
  obtain ⟨l₁, l₂, rfl⟩ := List.append_of_mem hm
  refine ⟨l₁, l₂, rfl, fun w hw => ?_⟩
  rw [List.map_append, List.map_cons] at hnd
  have := (List.nodup_append.1 hnd).2.1
  rw [List.nodup_cons] at this
  exact this.1 (List.mem_map.2 ⟨_, hw, rfl⟩)

theorem Denotes.perm {l l' : List (Opt × Str)} (hp : l.Perm l') (hnd : (l.map Prod.fst).Nodup)
    {ns : Namespace K} (h : Denotes cd float l ns) : Denotes cd float l' ns where
  valid p hm := h.valid p (hp.mem_iff.2 hm)
  mandatory o ho := by
    obtain ⟨v, hv⟩ := h.mandatory o ho
    exact ⟨v, hp.mem_iff.1 hv⟩
  given l₁ o v l₂ hl' _ := by
    have hm : (o, v) ∈ l := hp.mem_iff.2 (by rw [hl']; simp)
    obtain ⟨a, b, hab, hlast⟩ := last_of_nodup hnd hm
    exact h.given a o v b hab hlast
  unset o ho := h.unset o fun v hv => ho v (hp.mem_iff.1 hv)

/-- **C98** (order).  The order of the options does not matter if none is repeated. -/
theorem C98_order (hl : cd.Lawful) {argv argv' : List Str} {l l' : List (Opt × Str)}
    (h : Reads cd argv l) (h' : Reads cd argv' l') (hp : l.Perm l')
    (hnd : (l.map Prod.fst).Nodup) (ns : Namespace K) :
    parseArgs cd float argv = .ok ns ↔ parseArgs cd float argv' = .ok ns := by
  rw [C98_accepted_iff cd float hl, C98_accepted_iff cd float hl]
  constructor
  · rintro ⟨l₀, hr, hd⟩
    rw [hr.functional cd h] at hd
    exact ⟨_, h', hd.perm cd float hp hnd⟩
  · rintro ⟨l₀, hr, hd⟩
    rw [hr.functional cd h'] at hd
    exact ⟨_, h, hd.perm cd float hp.symm ((hp.map Prod.fst).nodup_iff.1 hnd)⟩

/-- **C98** fails for negative time steps written separately and not in plain decimal notation:
no command line that contains an argument like `-1e-3`, `-inf` or `-1.` (a dash, something that is
not `-`, no blank, not of the form `-5`, `-0.5`, `-.5`) is accepted, although `float` reads it. -/
theorem C98_negative_fails (hl : cd.Lawful) (c : Char) (r : Str) (hc : c ≠ '-')
    (hneg : ¬ PlainNegative cd ('-' :: c :: r))
    (hnl : ¬ ∃ t, '-' :: c :: r = t ++ "\n".toList ∧ PlainNegative cd t)
    (hsp : ' ' ∉ '-' :: c :: r) (argv : List Str) (hm : '-' :: c :: r ∈ argv)
    (ns : Namespace K) : parseArgs cd float argv ≠ .ok ns := by
  rw [ne_eq, C98_accepted_iff cd float hl]
  rintro ⟨l, hr, -⟩
  rcases (hr.mem cd hm).2 with (h | h | ⟨-, h | h | h⟩) | ⟨o, ho, h | ⟨n, v, h, hs⟩⟩
  · exact h ⟨c :: r, rfl⟩
  · simp at h
  · exact hneg h
  · exact hnl h
  · exact hsp h
  · exact not_dashes_prefix hc h.1 (List.prefix_refl _)
  · exact not_dashes_prefix hc h.1 (hs ▸ List.prefix_append _ _)

theorem PlainNegative.plain {cd : CharData} (hl : cd.Lawful)
    (hd : cd.digit 'h' = none ∧ cd.digit 'c' = none) {v : Str} (h : PlainNegative cd v) :
    Plain cd v := by
  refine .inr (.inr ⟨?_, .inl h⟩)
  obtain ⟨as, ds, has, hne, hds, hv⟩ := h
  have hsecond : ∃ c r, v = '-' :: c :: r ∧ c ≠ 'h' ∧ c ≠ 'c' ∧ c ≠ '-' := by
    have hdig : ∀ c, cd.digit c ≠ none → c ≠ 'h' ∧ c ≠ 'c' ∧ c ≠ '-' := by
      rintro c hc
      refine ⟨?_, ?_, ?_⟩ <;> rintro rfl
      · exact hc hd.1
      · exact hc hd.2
      · exact hc hl.minus.1
    rcases hv with rfl | rfl
    · match ds, hne with
      | d :: ds, _ => exact ⟨d, ds, rfl, hdig d (hds d (by simp))⟩
    · cases as with
      | nil => exact ⟨'.', ds, rfl, by decide, by decide, by decide⟩
      | cons a as => exact ⟨a, as ++ '.' :: ds, rfl, hdig a (has a (by simp))⟩
  obtain ⟨c, r, rfl, h1, h2, h3⟩ := hsecond
  rintro (h | h | ⟨n, o, hn, -, h⟩)
  · simp at h; exact h1 h.symm
  · simp at h; exact h2 h.symm
  · rcases h with h | ⟨x, h⟩
    · rw [← h] at hn
      exact not_dashes_prefix h3 hn (List.prefix_refl _)
    · exact not_dashes_prefix h3 hn (h ▸ List.prefix_append _ _)

/-- **C98** (negative time steps that work): in plain decimal notation, or in any notation if glued
to the name by `=`; the value is then read by `float`. -/
theorem C98_negative_partial (hl : cd.Lawful) (hd : cd.digit 'h' = none ∧ cd.digit 'c' = none)
    {pre post : List Str} {l₁ l₂ : List (Opt × Str)} (hpre : Reads cd pre l₁)
    (hpost : Reads cd post l₂) (v : Str) (ns : Namespace K) :
    (PlainNegative cd v →
      (parseArgs cd float (pre ++ "--snapshot_timestep".toList :: v :: post) = .ok ns ↔
        Denotes cd float (l₁ ++ (.snapshotTimestep, v) :: l₂) ns)) ∧
    (parseArgs cd float (pre ++ ("--snapshot_timestep".toList ++ '=' :: v) :: post) = .ok ns ↔
      Denotes cd float (l₁ ++ (.snapshotTimestep, v) :: l₂) ns) := by
  have hn : Names "--snapshot_timestep".toList .snapshotTimestep :=
    Opt.names_name .snapshotTimestep
  have ho : Opt.snapshotTimestep.Valued := ⟨by simp, by simp⟩
  have key : ∀ argv, Reads cd argv (l₁ ++ (.snapshotTimestep, v) :: l₂) →
      (parseArgs cd float argv = .ok ns ↔
        Denotes cd float (l₁ ++ (.snapshotTimestep, v) :: l₂) ns) := by
    intro argv hr
    rw [C98_accepted_iff cd float hl]
    constructor
    · rintro ⟨l, hr', hd⟩
      rwa [hr'.functional cd hr] at hd
    · exact fun hd => ⟨_, hr, hd⟩
  exact ⟨fun h => key _ (hpre.append cd (.pair hn ho (h.plain hl hd) hpost)),
    key _ (hpre.append cd (.glued hn ho hpost))⟩

/-- Options with a meaning satisfy what the rest of the program relies on. -/
theorem Denotes.usable {l : List (Opt × Str)} {ns : Namespace K} (hd : Denotes cd float l ns) :
    ns.options.Accepted ∧
    (∀ t : List ℤ, ns .flowGridShape = some t → ∀ x ∈ t, 0 < x) ∧
    (∀ t : List ℤ, ns .particlesGridShape = some t → ∀ x ∈ t, 0 < x) ∧
    ∀ (fs : Str → Option (List Char)) (per : K → K → Py ℤ),
      ∃ a, ns.program fs per = some a ∧ ArgsOf cd float fs per l a := by
  have hval : ∀ o x, ns o = some x → (∃ s, ValueOf cd float o s x) ∨
      Unset o (some x) := by
    intro o x hx
    by_cases ho : ∃ v, (o, v) ∈ l
    · obtain ⟨l₁, v, l₂, hl', hlast⟩ := last_occurrence l o ho
      obtain ⟨y, hy, hv⟩ := hd.given l₁ o v l₂ hl' hlast
      rw [hx] at hy
      cases hy
      exact .inl ⟨v, hv⟩
    · exact .inr (hx ▸ hd.unset o fun v hv => ho ⟨v, hv⟩)
  have hmand : ∀ o : Opt, o.Mandatory → ∃ x, ns o = some x := by
    intro o ho
    obtain ⟨l₁, v, l₂, hl', hlast⟩ := last_occurrence l o (hd.mandatory o ho)
    obtain ⟨y, hy, -⟩ := hd.given l₁ o v l₂ hl' hlast
    exact ⟨y, hy⟩
  have hshape : ∀ (s : Str) (t : List ℤ), ShapeLiteral cd s t → ∀ x ∈ t, 0 < x := by
    rintro s t ⟨parts, vs, -, -, -, hpos, h | ⟨rfl, -⟩⟩ x hx
    · exact hpos x (by rw [h]; simp [hx])
    · exact hpos x hx
  refine ⟨⟨?_, ?_, ?_⟩, ?_, ?_, ?_⟩
  · intro s hs
    have hs : (ns .integrator : Option Str).map String.ofList = some s := hs
    obtain ⟨x, hx, rfl⟩ := Option.map_eq_some_iff.1 hs
    rcases hval .integrator x hx with ⟨s, rfl, h⟩ | h
    · rcases h with rfl | rfl | rfl <;> simp [integratorChoices]
    · cases h
  · intro s hs
    have hs : (ns .interpolator : Option Str).map String.ofList = some s := hs
    obtain ⟨x, hx, rfl⟩ := Option.map_eq_some_iff.1 hs
    rcases hval .interpolator x hx with ⟨s, rfl, h⟩ | h
    · rcases h with rfl | rfl | rfl | rfl <;> simp [interpolatorChoices]
    · cases h
  · intro s hs
    have hs : (ns .outputFormat : Option Str).map String.ofList = some s := hs
    obtain ⟨x, hx, rfl⟩ := Option.map_eq_some_iff.1 hs
    rcases hval .outputFormat x hx with ⟨s, rfl, h⟩ | h
    · rcases h with rfl | rfl <;> simp [formatChoices]
    · cases h
  · intro t ht
    rcases hval .flowGridShape t ht with ⟨s, h⟩ | h
    · exact hshape s t h
    · cases h
  · intro t ht
    rcases hval .particlesGridShape t ht with ⟨s, h⟩ | h
    · exact hshape s t h
    · cases h
  · intro fs per
    have hlast : ∀ (o : Opt) (x : OptType K o), ns o = some x → ¬ Unset o (some x) →
        ∃ v, LastValue l o v ∧ ValueOf cd float o v x := by
      intro o x hx hu
      by_cases ho : ∃ v, (o, v) ∈ l
      · obtain ⟨l₁, v, l₂, hl', hlast⟩ := last_occurrence l o ho
        obtain ⟨y, hy, hv⟩ := hd.given l₁ o v l₂ hl' hlast
        rw [hx] at hy
        cases hy
        exact ⟨v, ⟨l₁, l₂, hl', hlast⟩, hv⟩
      · exact absurd (hx ▸ hd.unset o fun v hv => ho ⟨v, hv⟩) hu
    have hgiven : ∀ (o : Opt) (v : Str), LastValue l o v →
        ∃ x, ns o = some x ∧ ValueOf cd float o v x := by
      rintro o v ⟨l₁, l₂, hl', hlast⟩
      exact hd.given l₁ o v l₂ hl' hlast
    have hshapes : ∀ (o : Opt) (x : Option (List ℤ)),
        (∀ v, LastValue l o v → ∃ y, x = some y ∧ ShapeLiteral cd v y) →
        ((∀ v, (o, v) ∉ l) → x = none) →
        (∃ v t, LastValue l o v ∧ ShapeLiteral cd v t ∧
          (x.map fun l : List ℤ => l.map Int.toNat) = some (t.map Int.toNat)) ∨
        (∀ v, (o, v) ∉ l) ∧ (x.map fun l : List ℤ => l.map Int.toNat) = none := by
      intro o x h1 h2
      by_cases ho : ∃ v, (o, v) ∈ l
      · obtain ⟨l₁, v, l₂, hl', hlast⟩ := last_occurrence l o ho
        obtain ⟨y, rfl, hy⟩ := h1 v ⟨l₁, l₂, hl', hlast⟩
        exact .inl ⟨v, y, ⟨l₁, l₂, hl', hlast⟩, hy, rfl⟩
      · have ho' : ∀ v, (o, v) ∉ l := fun v hv => ho ⟨v, hv⟩
        refine .inr ⟨ho', ?_⟩
        rw [h2 ho']
        rfl
    have hchoice : ∀ (o : Opt) (x : Option Str),
        (∀ v, LastValue l o v → x = some v) → ((∀ v, (o, v) ∉ l) → x = none) →
        ∀ s : String, x.map String.ofList = some s ↔ LastValue l o s.toList := by
      intro o x h1 h2 s
      by_cases ho : ∃ v, (o, v) ∈ l
      · obtain ⟨l₁, v, l₂, hl', hlast⟩ := last_occurrence l o ho
        have hv : LastValue l o v := ⟨l₁, l₂, hl', hlast⟩
        rw [h1 v hv]
        constructor
        · intro h
          simp only [Option.map_some, Option.some.injEq] at h
          rw [← h, String.toList_ofList]
          exact hv
        · intro h
          have := (h1 v hv).symm.trans (h1 _ h)
          simp only [Option.some.injEq] at this
          rw [this, Option.map_some, String.ofList_toList]
      · have ho' : ∀ v, (o, v) ∉ l := fun v hv => ho ⟨v, hv⟩
        rw [h2 ho']
        constructor
        · intro h
          cases h
        · rintro ⟨l₁, l₂, hl', -⟩
          exact absurd (by rw [hl']; simp) (ho' s.toList)
    obtain ⟨a, ha⟩ := hmand .listVelocityFiles (by simp [Opt.Mandatory])
    obtain ⟨b, hb⟩ := hmand .listCoordinateFiles (by simp [Opt.Mandatory])
    obtain ⟨c, hc⟩ := hmand .listParticleFiles (by simp [Opt.Mandatory])
    obtain ⟨d, hdt⟩ := hmand .snapshotTimestep (by simp [Opt.Mandatory])
    obtain ⟨e, he⟩ := hmand .flowMapPeriod (by simp [Opt.Mandatory])
    have hn : ∃ n : ℤ, ns .numProcesses = some n ∧
        ((∃ v, LastValue l .numProcesses v ∧ IntLiteral cd v n) ∨
          (∀ v, (.numProcesses, v) ∉ l) ∧ n = 1) := by
      by_cases ho : ∃ v, (Opt.numProcesses, v) ∈ l
      · obtain ⟨l₁, v, l₂, hl', hlast⟩ := last_occurrence l _ ho
        obtain ⟨y, hy, hv⟩ := hd.given l₁ _ v l₂ hl' hlast
        exact ⟨y, hy, .inl ⟨v, ⟨l₁, l₂, hl', hlast⟩, hv⟩⟩
      · exact ⟨1, hd.unset .numProcesses fun v hv => ho ⟨v, hv⟩,
          .inr ⟨fun v hv => ho ⟨v, hv⟩, rfl⟩⟩
    obtain ⟨n, hn, hn'⟩ := hn
    unfold Namespace.program
    rw [ha, hb, hc, hdt, he, hn]
    obtain ⟨va, hva, rfl⟩ := hlast _ a ha (by simp [Unset])
    obtain ⟨vb, hvb, rfl⟩ := hlast _ b hb (by simp [Unset])
    obtain ⟨vc, hvc, rfl⟩ := hlast _ c hc (by simp [Unset])
    obtain ⟨vd, hvd, hd'⟩ := hlast _ d hdt (by simp [Unset])
    obtain ⟨ve, hve, he'⟩ := hlast _ e he (by simp [Unset])
    refine ⟨_, rfl, ⟨_, hva, rfl⟩, ⟨_, hvb, rfl⟩, ⟨_, hvc, rfl⟩, ⟨vd, hvd, hd'⟩,
      ⟨ve, e, hve, he', rfl⟩, ?_, ?_, ?_, hn', ?_, ?_⟩
    · refine hchoice .integrator (ns .integrator) (fun v hv => ?_) (hd.unset .integrator)
      obtain ⟨x, hx, rfl, -⟩ := hgiven .integrator v hv
      exact hx
    · refine hchoice .interpolator (ns .interpolator) (fun v hv => ?_) (hd.unset .interpolator)
      obtain ⟨x, hx, rfl, -⟩ := hgiven .interpolator v hv
      exact hx
    · refine hchoice .outputFormat (ns .outputFormat) (fun v hv => ?_) (hd.unset .outputFormat)
      obtain ⟨x, hx, rfl, -⟩ := hgiven .outputFormat v hv
      exact hx
    · exact hshapes .flowGridShape (ns .flowGridShape) (fun v hv => hgiven .flowGridShape v hv)
        (hd.unset .flowGridShape)
    · exact hshapes .particlesGridShape (ns .particlesGridShape)
        (fun v hv => hgiven .particlesGridShape v hv) (hd.unset .particlesGridShape)

/-- **C98** (what the program gets).  The options of an accepted command line satisfy what the
rest of the program relies on: choices are among the documented ones, grid shapes are positive, and
every attribute the process manager reads is there, with the value of the option it is named
after. -/
theorem C98_usable (hl : cd.Lawful) (argv : List Str) (ns : Namespace K)
    (h : parseArgs cd float argv = .ok ns) :
    ns.options.Accepted ∧
    (∀ t : List ℤ, ns .flowGridShape = some t → ∀ x ∈ t, 0 < x) ∧
    (∀ t : List ℤ, ns .particlesGridShape = some t → ∀ x ∈ t, 0 < x) ∧
    ∃ l, Reads cd argv l ∧ ∀ (fs : Str → Option (List Char)) (per : K → K → Py ℤ),
      ∃ a, ns.program fs per = some a ∧ ArgsOf cd float fs per l a := by
  obtain ⟨l, hr, hd⟩ := (C98_accepted_iff cd float hl argv ns).1 h
  obtain ⟨h1, h2, h3, h4⟩ := hd.usable cd float
  exact ⟨h1, h2, h3, l, hr, h4⟩

end

/-! ## Concrete cases -/

/-- A stand-in for `float`: it reads three strings. -/
def exFloatRead (s : Str) : Option ℚ :=
  if s = "0.1".toList then some (1 / 10)
  else if s = "-0.1".toList then some (-1 / 10)
  else if s = "-1e-1".toList then some (-1 / 10)
  else none

/-- A command line with abbreviations, both spellings and a repeated option. -/
def exArgv : List Str :=
  ["--exp".toList, "run 1".toList, "--list_v=v.txt".toList, "--list_c".toList, "c.txt".toList,
    "--list_p".toList, "p.txt".toList, "--snap".toList, "-0.1".toList, "--flow_m=0.1".toList,
    "--integ".toList, "euler".toList, "--integ=rk4".toList, "--flow_g".toList,
    "3, 4 ,1".toList]

/-- An attribute of the result. -/
def exAttribute {β : Type} (argv : List Str) (f : Namespace ℚ → Option β) : Option β :=
  match parseArgs asciiData exFloatRead argv with
  | .error _ => none
  | .ok ns => f ns

/-- The command line is accepted; the last `--integ` counts, the trailing `1` is dropped. -/
example : exAttribute (β := Str) exArgv (· .experimentName) = some "run 1".toList ∧
    exAttribute (β := ℚ) exArgv (· .snapshotTimestep) = some (-1 / 10 : ℚ) ∧
    exAttribute (β := Str) exArgv (· .integrator) = some "rk4".toList ∧
    exAttribute (β := ℤ) exArgv (· .numProcesses) = some (1 : ℤ) ∧
    exAttribute (β := List ℤ) exArgv (· .flowGridShape) = some ([3, 4] : List ℤ) ∧
    exAttribute (β := Str) exArgv (· .outputFormat) = (none : Option Str) := by
  refine ⟨?_, ?_, ?_, ?_, ?_, ?_⟩ <;> decide +kernel

/-- So it is described by `Reads`. -/
example : ∃ ns l, Reads asciiData exArgv l ∧ Denotes asciiData exFloatRead l ns := by
  have h : ∃ ns, parseArgs asciiData exFloatRead exArgv = .ok ns := by
    cases h : parseArgs asciiData exFloatRead exArgv with
    | error e =>
      have h2 : (parseArgs asciiData exFloatRead exArgv).toOption.isSome = true := by
        decide +kernel
      rw [h] at h2
      cases h2
    | ok ns => exact ⟨ns, rfl⟩
  obtain ⟨ns, h⟩ := h
  exact ⟨ns, (C98_accepted_iff asciiData exFloatRead asciiData_lawful _ ns).1 h⟩

/-- The way the parser ends. -/
def exStop (argv : List Str) : Option Stop :=
  match parseArgs asciiData exFloatRead argv with
  | .error e => some e
  | .ok _ => none

-- the same line with the time step in scientific notation, separate and glued
example : exStop (exArgv.set 8 "-1e-1".toList) = some (.exit 2) := by decide +kernel
example : exStop ((exArgv.set 7 "--snap=-1e-1".toList).eraseIdx 8) = none := by decide +kernel
-- ambiguous and unknown options, missing values, `--`, bad values, missing options
example : exStop (exArgv ++ ["--inte=rk4".toList]) = some (.exit 2) := by decide +kernel
example : exStop (exArgv ++ ["--speed=1".toList]) = some (.exit 2) := by decide +kernel
example : exStop (exArgv ++ ["--num".toList]) = some (.exit 2) := by decide +kernel
example : exStop (exArgv ++ ["--".toList]) = some (.exit 2) := by decide +kernel
example : exStop (exArgv ++ ["--num=1.5".toList]) = some (.exit 2) := by decide +kernel
example : exStop (exArgv ++ ["--interp=spline".toList]) = some (.exit 2) := by decide +kernel
example : exStop (exArgv.drop 2) = some (.exit 2) := by decide +kernel
-- help and configuration files
example : exStop ["-hx".toList] = some (.exit 0) := by decide +kernel
example : exStop (exArgv ++ ["--he".toList]) = some (.exit 0) := by decide +kernel
example : exStop ["-c".toList, "config.yaml".toList] = some .configFile := by decide +kernel
example : exStop ["--conf=config.yaml".toList] = some .configFile := by decide +kernel

/-- `-1e-1` meets the hypotheses of `C98_negative_fails`. -/
example (argv : List Str) (hm : "-1e-1".toList ∈ argv) (ns : Namespace ℚ) :
    parseArgs asciiData exFloatRead argv ≠ .ok ns := by
  have h : negativeNumber asciiData "-1e-1".toList = false := by decide +kernel
  have h' : ¬ negativeNumber asciiData "-1e-1".toList = true := by rw [h]; simp
  rw [negativeNumber_iff, not_or] at h'
  exact C98_negative_fails asciiData exFloatRead asciiData_lawful '1' "e-1".toList (by decide) h'.1
    h'.2 (by decide) argv hm ns

/-- `-0.1` is written plainly, and `1.txt` is a possible value. -/
example : PlainNegative asciiData "-0.1".toList ∧ Plain asciiData "1.txt".toList :=
  ⟨(negMatch_iff _ _).1 (by decide +kernel), .inl (by decide)⟩

/-- Two orders of two options, with the hypotheses of `C98_order` and `C98_spelling`. -/
example : ∃ l l', Reads asciiData ["--num_processes".toList, "2".toList, "--integrator=ab2".toList] l ∧
    Reads asciiData ["--integrator".toList, "ab2".toList, "--num_processes".toList, "2".toList] l' ∧
    l.Perm l' ∧ (l.map Prod.fst).Nodup := by
  have hv : ∀ s : Str, ¬ "-".toList <+: s → Plain asciiData s := fun s h => .inl h
  refine ⟨[(.numProcesses, "2".toList), (.integrator, "ab2".toList)],
    [(.integrator, "ab2".toList), (.numProcesses, "2".toList)], ?_, ?_, List.Perm.swap _ _ _,
    by decide⟩
  · exact .pair (Opt.names_name .numProcesses) ⟨by decide, by decide⟩ (hv _ (by decide))
      (.glued (n := Opt.name .integrator) (Opt.names_name .integrator) ⟨by decide, by decide⟩ .nil)
  · exact .pair (Opt.names_name .integrator) ⟨by decide, by decide⟩ (hv _ (by decide))
      (.pair (Opt.names_name .numProcesses) ⟨by decide, by decide⟩ (hv _ (by decide)) .nil)

end Verif
