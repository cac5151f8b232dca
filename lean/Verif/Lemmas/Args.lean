import Verif.Spec.CommandLine
import Verif.Props.Cli

/-!
# Helper lemmas for the command line
-/

namespace Verif

/-! ## Names -/

/-- The options, once each. -/
def Opt.all : List Opt :=
  [.help, .config, .experimentName, .listVelocityFiles, .listCoordinateFiles, .listParticleFiles,
    .snapshotTimestep, .flowMapPeriod, .integrator, .interpolator, .numProcesses, .outputFormat,
    .flowGridShape, .particlesGridShape]

theorem Opt.mem_all (o : Opt) : o ∈ Opt.all := by cases o <;> decide

theorem Opt.nodup_all : Opt.all.Nodup := by decide

theorem Opt.name_prefix (o o' : Opt) : o.name <+: o'.name ↔ o' = o := by
  have h : ∀ o ∈ Opt.all, ∀ o' ∈ Opt.all, o.name.isPrefixOf o'.name = true ↔ o' = o := by
    decide +kernel
  rw [← h o o.mem_all o' o'.mem_all, List.isPrefixOf_iff_prefix]

theorem Opt.name_dashes (o : Opt) : "--".toList <+: o.name := by
  have h : ∀ o ∈ Opt.all, "--".toList.isPrefixOf o.name = true := by decide +kernel
  exact List.isPrefixOf_iff_prefix.1 (h o o.mem_all)

theorem Opt.name_eq (o : Opt) : '=' ∉ o.name := by
  have h : ∀ o ∈ Opt.all, '=' ∉ o.name := by decide +kernel
  exact h o o.mem_all

theorem Opt.name_space (o : Opt) : ' ' ∉ o.name := by
  have h : ∀ o ∈ Opt.all, ' ' ∉ o.name := by decide +kernel
  exact h o o.mem_all

theorem Opt.names_name (o : Opt) : Names o.name o := ⟨o.name_dashes, fun o' => o.name_prefix o'⟩

theorem Names.prefix {n : Str} {o : Opt} (h : Names n o) : n <+: o.name := (h.2 o).2 rfl

theorem Names.no_eq {n : Str} {o : Opt} (h : Names n o) : '=' ∉ n :=
  fun hm => o.name_eq (h.prefix.subset hm)

theorem Names.unique {n : Str} {o o' : Opt} (h : Names n o) (h' : Names n o') : o = o' :=
  (h'.2 o).1 h.prefix

theorem Names.ne_dashes {n : Str} {o : Opt} (h : Names n o) : n ≠ "--".toList := by
  rintro rfl
  have h1 := (h.2 .help).1 (Opt.name_dashes _)
  have h2 := (h.2 .config).1 (Opt.name_dashes _)
  rw [← h1] at h2
  cases h2

theorem optionTable_eq : optionTable = ("-h".toList, .help) :: (Opt.name .help, .help) ::
    ("-c".toList, .config) :: (Opt.all.tail.map fun o => (o.name, o)) := by decide +kernel

/-! ## `partition` -/

theorem partitionEq_no (s : Str) (h : '=' ∉ s) : partitionEq s = (s, none) := by
  induction s with
  | nil => rfl
  | cons c cs ih =>
    simp only [List.mem_cons, not_or] at h
    simp [partitionEq, ih h.2, Ne.symm h.1]

theorem partitionEq_at (n v : Str) (h : '=' ∉ n) : partitionEq (n ++ '=' :: v) = (n, some v) := by
  induction n with
  | nil => simp [partitionEq]
  | cons c cs ih =>
    simp only [List.mem_cons, not_or] at h
    simp [partitionEq, ih h.2, Ne.symm h.1]

theorem partitionEq_none (s : Str) (h : (partitionEq s).2 = none) : (partitionEq s).1 = s := by
  by_cases hs : '=' ∈ s
  · obtain ⟨n, v, rfl, hn⟩ := List.eq_append_cons_of_mem hs
    rw [partitionEq_at _ _ hn] at h
    simp at h
  · rw [partitionEq_no s hs]

theorem partitionEq_some (s x : Str) (h : (partitionEq s).2 = some x) :
    s = (partitionEq s).1 ++ '=' :: x ∧ '=' ∉ (partitionEq s).1 := by
  by_cases hs : '=' ∈ s
  · obtain ⟨n, v, rfl, hn⟩ := List.eq_append_cons_of_mem hs
    rw [partitionEq_at _ _ hn] at h ⊢
    simp only [Option.some.injEq] at h
    exact ⟨by rw [h], hn⟩
  · rw [partitionEq_no s hs] at h
    simp at h

/-- The part before `=` begins with two dashes if the string does. -/
theorem partitionEq_dashes (q : Str) :
    (partitionEq ('-' :: '-' :: q)).1 = '-' :: '-' :: (partitionEq q).1 := by
  simp [partitionEq]

/-! ## Looking up option strings -/

theorem findOption_dashes (q : Str) (o : Opt) :
    findOption ('-' :: '-' :: q) = some o ↔ '-' :: '-' :: q = o.name := by
  constructor
  · intro h
    unfold findOption at h
    have hm : ('-' :: '-' :: q, o) ∈ optionTable := by
      rw [List.lookup_eq_some_iff] at h
      obtain ⟨l₁, l₂, h, -⟩ := h
      rw [h]
      simp
    rw [optionTable_eq] at hm
    simp only [List.mem_cons, Prod.mk.injEq, List.mem_map] at hm
    rcases hm with ⟨h1, -⟩ | ⟨h1, h2⟩ | ⟨h1, -⟩ | ⟨o', -, h1, h2⟩
    · simp at h1
    · rw [h2]; exact h1
    · simp at h1
    · rw [← h2]; exact h1.symm
  · intro h
    rw [h]
    have hh : ∀ o ∈ Opt.all, findOption o.name = some o := by decide +kernel
    exact hh o o.mem_all

theorem findOption_single (c : Char) (r : Str) (hc : c ≠ '-') :
    findOption ('-' :: c :: r) =
      if c = 'h' ∧ r = [] then some .help else if c = 'c' ∧ r = [] then some .config else none := by
  have hd : ∀ s : Str, (('-' :: c :: r) == ('-' :: '-' :: s)) = false := by
    intro s; simp [hc]
  have hn : ∀ o : Opt, (('-' :: c :: r) == o.name) = false := by
    intro o
    obtain ⟨t, ht⟩ := o.name_dashes
    rw [← ht]
    exact hd t
  have hrest : ∀ l : List Opt, (l.map fun o => (o.name, o)).lookup ('-' :: c :: r) = none := by
    intro l
    induction l with
    | nil => rfl
    | cons o l ih => simp only [List.map_cons, List.lookup_cons, hn]; exact ih
  unfold findOption
  rw [optionTable_eq]
  simp only [List.lookup_cons, hn, hrest]
  by_cases h1 : c = 'h' ∧ r = []
  · obtain ⟨rfl, rfl⟩ := h1; rfl
  · have e1 : (('-' :: c :: r) == "-h".toList) = false := by
      simp; intro h; exact fun h2 => h1 ⟨h, h2⟩
    rw [e1]
    by_cases h2 : c = 'c' ∧ r = []
    · obtain ⟨rfl, rfl⟩ := h2; rfl
    · have e2 : (('-' :: c :: r) == "-c".toList) = false := by
        simp; intro h; exact fun h3 => h2 ⟨h, h3⟩
      rw [e2, if_neg h1, if_neg h2]

theorem optionTuples_dashes (q : Str) :
    optionTuples ('-' :: '-' :: q) =
      (Opt.all.filter fun o => (partitionEq ('-' :: '-' :: q)).1.isPrefixOf o.name).map
        fun o => ⟨some o, false, (partitionEq ('-' :: '-' :: q)).2⟩ := by
  have hgen : ∀ (p : Str) (x : Option Str) (l : List Opt),
      ((l.map fun o => (o.name, o)).filterMap fun e : Str × Opt =>
        if p.isPrefixOf e.1 then some (⟨some e.2, false, x⟩ : OptTuple) else none) =
      (l.filter fun o => p.isPrefixOf o.name).map fun o => ⟨some o, false, x⟩ := by
    intro p x l
    induction l with
    | nil => rfl
    | cons o l ih =>
      simp only [List.map_cons, List.filterMap_cons, List.filter_cons]
      by_cases h : p.isPrefixOf o.name = true
      · rw [if_pos h, if_pos h, List.map_cons, ← ih]
      · rw [if_neg h, if_neg h, ← ih]
  unfold optionTuples
  simp only
  rw [optionTable_eq, partitionEq_dashes]
  have e1 : ∀ t, List.isPrefixOf ('-' :: '-' :: t) "-h".toList = false := by
    intro t; simp [List.isPrefixOf]
  have e2 : ∀ t, List.isPrefixOf ('-' :: '-' :: t) "-c".toList = false := by
    intro t; simp [List.isPrefixOf]
  simp only [List.filterMap_cons, e1, e2, Bool.false_eq_true, if_false]
  have := hgen ('-' :: '-' :: (partitionEq q).1) (partitionEq ('-' :: '-' :: q)).2 Opt.all
  rw [← this]
  rfl

theorem filter_singleton {p : Opt → Bool} {o : Opt} :
    Opt.all.filter p = [o] ↔ ∀ o', p o' = true ↔ o' = o := by
  constructor
  · intro h o'
    have : o' ∈ Opt.all.filter p ↔ o' = o := by rw [h]; simp
    simpa [o'.mem_all] using this
  · intro h
    have : p = fun o' => decide (o' = o) := by
      funext o'
      rw [Bool.eq_iff_iff]
      simp [h o']
    rw [this]
    cases o <;> decide

theorem optionTuples_single (c : Char) (r : Str) (hc : c ≠ '-') :
    optionTuples ('-' :: c :: r) =
      if c = 'h' then [⟨some .help, true, some r⟩]
      else if c = 'c' then [⟨some .config, true, some r⟩] else [] := by
  have hrest : ∀ l : List Opt, ((l.map fun o => (o.name, o)).filterMap fun e : Str × Opt =>
      if e.1 = ('-' :: c :: r).take 2 then
        some (⟨some e.2, true, some (('-' :: c :: r).drop 2)⟩ : OptTuple)
      else if ('-' :: c :: r).isPrefixOf e.1 then some ⟨some e.2, false, none⟩ else none) = [] := by
    intro l
    induction l with
    | nil => rfl
    | cons o l ih =>
      obtain ⟨t, ht⟩ := o.name_dashes
      have e1 : ¬ o.name = ('-' :: c :: r).take 2 := by
        rw [← ht]
        simp [Ne.symm hc]
      have e2 : ('-' :: c :: r).isPrefixOf o.name = false := by
        rw [← ht]
        simp [List.isPrefixOf, hc]
      simp only [List.map_cons, List.filterMap_cons, if_neg e1, e2, Bool.false_eq_true, if_false]
      exact ih
  unfold optionTuples
  split
  · rename_i h
    simp only [List.cons.injEq, true_and] at h
    exact absurd h.1 hc
  · rw [optionTable_eq]
    have := hrest (.help :: Opt.all.tail)
    simp only [List.map_cons, List.filterMap_cons] at this ⊢
    have hh := hrest [.help]
    have ht := hrest Opt.all.tail
    simp only [List.map_cons, List.map_nil, List.filterMap_cons, List.filterMap_nil] at hh
    rw [ht]
    have hnone : (if Opt.help.name = ('-' :: c :: r).take 2 then
        some (⟨some .help, true, some (('-' :: c :: r).drop 2)⟩ : OptTuple)
        else if ('-' :: c :: r).isPrefixOf Opt.help.name then some ⟨some .help, false, none⟩
        else none) = none := by
      split at hh
      · assumption
      · simp at hh
    rw [hnone]
    by_cases h1 : c = 'h'
    · subst h1; simp
    · by_cases h2 : c = 'c'
      · subst h2; simp [List.isPrefixOf]
      · simp [h1, h2, Ne.symm h1, Ne.symm h2, List.isPrefixOf]

/-! ## Classification of one argument -/

theorem names_iff_filter (q : Str) (o : Opt) :
    Names (partitionEq ('-' :: '-' :: q)).1 o ↔
      Opt.all.filter (fun o => (partitionEq ('-' :: '-' :: q)).1.isPrefixOf o.name) = [o] := by
  have hdash : "--".toList <+: (partitionEq ('-' :: '-' :: q)).1 := by
    rw [partitionEq_dashes]
    exact ⟨(partitionEq q).1, rfl⟩
  rw [filter_singleton]
  simp only [List.isPrefixOf_iff_prefix]
  exact ⟨fun h => h.2, fun h => ⟨hdash, h⟩⟩

theorem parseByPrefix_some (cd : CharData) (q : Str) (o : Opt) (sh : Bool) (x : Option Str) :
    parseByPrefix cd ('-' :: '-' :: q) = .ok (some ⟨some o, sh, x⟩) ↔
      sh = false ∧ x = (partitionEq ('-' :: '-' :: q)).2 ∧
        Names (partitionEq ('-' :: '-' :: q)).1 o := by
  rw [names_iff_filter]
  unfold parseByPrefix
  rw [optionTuples_dashes]
  generalize Opt.all.filter _ = l
  match l with
  | [] =>
    simp only [List.map_nil, List.nil_eq, reduceCtorEq, and_false, iff_false]
    split_ifs <;> simp
  | [o'] =>
    simp only [List.map_cons, List.map_nil, Except.ok.injEq, Option.some.injEq,
      OptTuple.mk.injEq, List.cons.injEq, and_true]
    constructor
    · rintro ⟨h1, h2, h3⟩; exact ⟨h2.symm, h3.symm, h1⟩
    · rintro ⟨h1, h2, h3⟩; exact ⟨h3, h1.symm, h2.symm⟩
  | a :: b :: l => simp

/-- Arguments that begin with two dashes are options if the part before `=` names one. -/
theorem parseOptional_dashes_some (cd : CharData) (q : Str) (o : Opt) (sh : Bool)
    (x : Option Str) :
    parseOptional cd ('-' :: '-' :: q) = .ok (some ⟨some o, sh, x⟩) ↔
      sh = false ∧ x = (partitionEq ('-' :: '-' :: q)).2 ∧
        Names (partitionEq ('-' :: '-' :: q)).1 o := by
  unfold parseOptional
  simp only [ne_eq, not_true_eq_false, if_false]
  cases hf : findOption ('-' :: '-' :: q) with
  | some o' =>
    have hn := (findOption_dashes q o').1 hf
    have hp : partitionEq ('-' :: '-' :: q) = ('-' :: '-' :: q, none) :=
      partitionEq_no _ (hn ▸ o'.name_eq)
    rw [hp, hn]
    constructor
    · intro h
      simp only [Except.ok.injEq, Option.some.injEq, OptTuple.mk.injEq] at h
      obtain ⟨rfl, rfl, rfl⟩ := h
      exact ⟨rfl, rfl, Opt.names_name _⟩
    · rintro ⟨rfl, rfl, h⟩
      rw [h.unique (Opt.names_name _)]
  | none =>
    simp only [reduceCtorEq, if_false]
    cases hx : (partitionEq ('-' :: '-' :: q)).2 with
    | none =>
      simp only
      rw [parseByPrefix_some, hx]
    | some y =>
      cases hg : findOption (partitionEq ('-' :: '-' :: q)).1 with
      | none =>
        simp only
        rw [parseByPrefix_some, hx]
      | some o' =>
        simp only
        rw [partitionEq_dashes] at hg
        have hn := (findOption_dashes _ o').1 hg
        rw [← partitionEq_dashes] at hn
        rw [hn]
        constructor
        · intro h
          simp only [Except.ok.injEq, Option.some.injEq, OptTuple.mk.injEq] at h
          obtain ⟨rfl, rfl, rfl⟩ := h
          exact ⟨rfl, rfl, Opt.names_name _⟩
        · rintro ⟨rfl, rfl, h⟩
          rw [h.unique (Opt.names_name _)]

/-- The argument begins like an option with two dashes. -/
def LikeLong (s : Str) : Prop :=
  ∃ (n : Str) (o : Opt), "--".toList <+: n ∧ n <+: o.name ∧ (s = n ∨ ∃ x, s = n ++ '=' :: x)

theorem likeLong_iff (q : Str) :
    LikeLong ('-' :: '-' :: q) ↔ ∃ o : Opt, (partitionEq ('-' :: '-' :: q)).1 <+: o.name := by
  constructor
  · rintro ⟨n, o, -, hp, h⟩
    have hn : '=' ∉ n := fun hm => o.name_eq (hp.subset hm)
    rcases h with h | ⟨x, h⟩
    · rw [h, partitionEq_no n hn]; exact ⟨o, hp⟩
    · rw [h, partitionEq_at n x hn]; exact ⟨o, hp⟩
  · rintro ⟨o, hp⟩
    refine ⟨_, o, ?_, hp, ?_⟩
    · rw [partitionEq_dashes]; exact ⟨(partitionEq q).1, rfl⟩
    · cases hx : (partitionEq ('-' :: '-' :: q)).2 with
      | none => exact .inl (partitionEq_none _ hx).symm
      | some x => exact .inr ⟨x, (partitionEq_some _ x hx).1⟩

theorem parseByPrefix_none (cd : CharData) (q : Str) :
    parseByPrefix cd ('-' :: '-' :: q) = .ok none ↔
      ¬ LikeLong ('-' :: '-' :: q) ∧
        (negativeNumber cd ('-' :: '-' :: q) = true ∨ ' ' ∈ '-' :: '-' :: q) := by
  rw [likeLong_iff]
  have hmem : (∃ o : Opt, (partitionEq ('-' :: '-' :: q)).1 <+: o.name) ↔
      Opt.all.filter (fun o => (partitionEq ('-' :: '-' :: q)).1.isPrefixOf o.name) ≠ [] := by
    rw [ne_eq, List.filter_eq_nil_iff]
    push Not
    simp only [List.isPrefixOf_iff_prefix]
    exact ⟨fun ⟨o, h⟩ => ⟨o, o.mem_all, h⟩, fun ⟨o, _, h⟩ => ⟨o, h⟩⟩
  rw [hmem]
  unfold parseByPrefix
  rw [optionTuples_dashes]
  generalize Opt.all.filter _ = l
  match l with
  | [] =>
    simp only [List.map_nil, ne_eq, not_true_eq_false, not_false_eq_true, true_and]
    by_cases h1 : negativeNumber cd ('-' :: '-' :: q) = true
    · simp [h1]
    · by_cases h2 : ' ' ∈ '-' :: '-' :: q
      · rw [if_neg h1, if_pos h2]; simp [h2]
      · rw [if_neg h1, if_neg h2]; simp only [h1, h2]; simp
  | [o'] => simp
  | a :: b :: l => simp

theorem parseOptional_dashes_none (cd : CharData) (q : Str) :
    parseOptional cd ('-' :: '-' :: q) = .ok none ↔
      ¬ LikeLong ('-' :: '-' :: q) ∧
        (negativeNumber cd ('-' :: '-' :: q) = true ∨ ' ' ∈ '-' :: '-' :: q) := by
  unfold parseOptional
  simp only [ne_eq, not_true_eq_false, if_false]
  cases hf : findOption ('-' :: '-' :: q) with
  | some o' =>
    have hn := (findOption_dashes q o').1 hf
    simp only [Except.ok.injEq, reduceCtorEq, false_iff, not_and]
    intro h
    exact absurd ⟨_, o', o'.name_dashes, List.prefix_refl _, .inl hn⟩ h
  | none =>
    simp only [reduceCtorEq, if_false]
    cases hx : (partitionEq ('-' :: '-' :: q)).2 with
    | none =>
      simp only
      rw [parseByPrefix_none]
    | some y =>
      cases hg : findOption (partitionEq ('-' :: '-' :: q)).1 with
      | none =>
        simp only
        rw [parseByPrefix_none]
      | some o' =>
        rw [partitionEq_dashes] at hg
        have hn := (findOption_dashes _ o').1 hg
        rw [← partitionEq_dashes] at hn
        simp only [Except.ok.injEq, reduceCtorEq, false_iff, not_and]
        intro h
        exact absurd ((likeLong_iff q).2 ⟨o', hn ▸ List.prefix_refl _⟩) h

theorem findOption_single_some {c : Char} {r : Str} {o : Opt} (hc : c ≠ '-')
    (h : findOption ('-' :: c :: r) = some o) : (o = .help ∧ c = 'h') ∨ (o = .config ∧ c = 'c') := by
  rw [findOption_single c r hc] at h
  split_ifs at h with h1 h2
  · exact .inl ⟨(Option.some.inj h).symm, h1.1⟩
  · exact .inr ⟨(Option.some.inj h).symm, h2.1⟩

theorem findOption_part {c : Char} {r : Str} {o : Opt} (hc : c ≠ '-')
    (h : findOption (partitionEq ('-' :: c :: r)).1 = some o) :
    (o = .help ∧ c = 'h') ∨ (o = .config ∧ c = 'c') := by
  by_cases he : c = '='
  · subst he
    have : (partitionEq ('-' :: '=' :: r)).1 = "-".toList := by simp [partitionEq]
    rw [this] at h
    have h0 : findOption "-".toList = none := by decide +kernel
    rw [h0] at h
    cases h
  · have : (partitionEq ('-' :: c :: r)).1 = '-' :: c :: (partitionEq r).1 := by
      simp [partitionEq, he]
    rw [this] at h
    exact findOption_single_some hc h

/-- Options with one dash. -/
theorem parseOptional_single_some {cd : CharData} {c : Char} {r : Str} {t : OptTuple} {o : Opt}
    (hc : c ≠ '-') (h : parseOptional cd ('-' :: c :: r) = .ok (some t)) (ht : t.opt = some o) :
    (o = .help ∧ c = 'h') ∨ (o = .config ∧ c = 'c') := by
  have hpre : parseByPrefix cd ('-' :: c :: r) = .ok (some t) →
      (o = .help ∧ c = 'h') ∨ (o = .config ∧ c = 'c') := by
    intro h
    unfold parseByPrefix at h
    rw [optionTuples_single c r hc] at h
    by_cases h1 : c = 'h'
    · simp only [h1, if_true, Except.ok.injEq, Option.some.injEq] at h
      subst h
      exact .inl ⟨(Option.some.inj ht).symm, h1⟩
    · by_cases h2 : c = 'c'
      · rw [if_neg h1, if_pos h2] at h
        simp only [Except.ok.injEq, Option.some.injEq] at h
        subst h
        exact .inr ⟨(Option.some.inj ht).symm, h2⟩
      · rw [if_neg h1, if_neg h2] at h
        simp only at h
        split_ifs at h
        · cases h
        · cases h
        · cases h
          cases ht
  unfold parseOptional at h
  simp only [ne_eq, not_true_eq_false, if_false] at h
  cases hf : findOption ('-' :: c :: r) with
  | some o' =>
    simp only [hf, Except.ok.injEq, Option.some.injEq] at h
    subst h
    cases ht
    exact findOption_single_some hc hf
  | none =>
    simp only [hf, reduceCtorEq, if_false] at h
    cases hx : (partitionEq ('-' :: c :: r)).2 with
    | none =>
      simp only [hx] at h
      exact hpre h
    | some x =>
      cases hg : findOption (partitionEq ('-' :: c :: r)).1 with
      | none =>
        simp only [hx, hg] at h
        exact hpre h
      | some o' =>
        simp only [hx, hg, Except.ok.injEq, Option.some.injEq] at h
        subst h
        cases ht
        exact findOption_part hc hg

theorem parseOptional_single_none (cd : CharData) (c : Char) (r : Str) (hc : c ≠ '-') :
    parseOptional cd ('-' :: c :: r) = .ok none ↔
      (c ≠ 'h' ∧ c ≠ 'c') ∧ (negativeNumber cd ('-' :: c :: r) = true ∨ ' ' ∈ '-' :: c :: r) := by
  have hpre : parseByPrefix cd ('-' :: c :: r) = .ok none ↔
      (c ≠ 'h' ∧ c ≠ 'c') ∧
        (negativeNumber cd ('-' :: c :: r) = true ∨ ' ' ∈ '-' :: c :: r) := by
    unfold parseByPrefix
    rw [optionTuples_single c r hc]
    by_cases h1 : c = 'h'
    · simp [h1]
    · by_cases h2 : c = 'c'
      · rw [if_neg h1, if_pos h2]; simp [h2]
      · rw [if_neg h1, if_neg h2]
        simp only [ne_eq, h1, h2, not_false_eq_true, true_and]
        by_cases h3 : negativeNumber cd ('-' :: c :: r) = true
        · simp [h3]
        · by_cases h4 : ' ' ∈ '-' :: c :: r
          · rw [if_neg h3, if_pos h4]; simp [h4]
          · rw [if_neg h3, if_neg h4]; simp only [h3, h4]; simp
  unfold parseOptional
  simp only [ne_eq, not_true_eq_false, if_false]
  cases hf : findOption ('-' :: c :: r) with
  | some o' =>
    simp only [Except.ok.injEq, reduceCtorEq, false_iff]
    rintro ⟨⟨h1, h2⟩, -⟩
    rcases findOption_single_some hc hf with ⟨-, h⟩ | ⟨-, h⟩
    · exact h1 h
    · exact h2 h
  | none =>
    simp only [reduceCtorEq, if_false]
    cases hx : (partitionEq ('-' :: c :: r)).2 with
    | none => exact hpre
    | some x =>
      cases hg : findOption (partitionEq ('-' :: c :: r)).1 with
      | none => exact hpre
      | some o' =>
        simp only [Except.ok.injEq, reduceCtorEq, false_iff]
        rintro ⟨⟨h1, h2⟩, -⟩
        rcases findOption_part hc hg with ⟨-, h⟩ | ⟨-, h⟩
        · exact h1 h
        · exact h2 h

/-! ## Negative numbers -/

theorem fracMatch_iff (cd : CharData) (s : Str) :
    fracMatch cd s = true ↔ ∃ as ds, (∀ c ∈ as, cd.digit c ≠ none) ∧ ds ≠ [] ∧
      (∀ c ∈ ds, cd.digit c ≠ none) ∧ s = as ++ '.' :: ds := by
  induction s with
  | nil => simp [fracMatch]
  | cons c cs ih =>
    simp only [fracMatch, Bool.or_eq_true, Bool.and_eq_true, decide_eq_true_eq, Bool.not_eq_true',
      List.isEmpty_eq_false_iff, List.all_eq_true, Option.isSome_iff_ne_none, ih]
    constructor
    · rintro (⟨⟨rfl, h2⟩, h3⟩ | ⟨h1, as, ds, h2, h3, h4, rfl⟩)
      · exact ⟨[], cs, by simp, h2, h3, rfl⟩
      · refine ⟨c :: as, ds, ?_, h3, h4, rfl⟩
        intro d hd
        rcases List.mem_cons.1 hd with rfl | hd
        · exact h1
        · exact h2 d hd
    · rintro ⟨as, ds, h2, h3, h4, h⟩
      cases as with
      | nil =>
        simp only [List.nil_append, List.cons.injEq] at h
        obtain ⟨rfl, rfl⟩ := h
        exact .inl ⟨⟨rfl, h3⟩, h4⟩
      | cons a as =>
        simp only [List.cons_append, List.cons.injEq] at h
        obtain ⟨rfl, rfl⟩ := h
        exact .inr ⟨h2 c (by simp), as, ds, fun d hd => h2 d (by simp [hd]), h3, h4, rfl⟩

theorem negMatch_iff (cd : CharData) (s : Str) : negMatch cd s = true ↔ PlainNegative cd s := by
  unfold negMatch
  split
  · rename_i cs
    simp only [Bool.or_eq_true, Bool.and_eq_true, Bool.not_eq_true', List.isEmpty_eq_false_iff,
      List.all_eq_true, Option.isSome_iff_ne_none, fracMatch_iff]
    constructor
    · rintro (⟨h1, h2⟩ | ⟨as, ds, h1, h2, h3, rfl⟩)
      · exact ⟨[], cs, by simp, h1, h2, .inl rfl⟩
      · exact ⟨as, ds, h1, h2, h3, .inr rfl⟩
    · rintro ⟨as, ds, h1, h2, h3, h | h⟩
      · simp only [List.cons.injEq, true_and] at h
        subst h
        exact .inl ⟨h2, h3⟩
      · simp only [List.cons.injEq, true_and] at h
        exact .inr ⟨as, ds, h1, h2, h3, h⟩
  · rename_i hne
    simp only [Bool.false_eq_true, false_iff]
    rintro ⟨as, ds, -, -, -, h | h⟩
    · exact hne _ h
    · exact hne _ h

theorem negativeNumber_iff (cd : CharData) (s : Str) : negativeNumber cd s = true ↔
    PlainNegative cd s ∨ ∃ t, s = t ++ "\n".toList ∧ PlainNegative cd t := by
  unfold negativeNumber
  simp only [Bool.or_eq_true, Bool.and_eq_true, decide_eq_true_eq, negMatch_iff]
  constructor
  · rintro (h | ⟨h1, h2⟩)
    · exact .inl h
    · exact .inr ⟨s.dropLast, (List.dropLast_append_getLast? _ h1).symm, h2⟩
  · rintro (h | ⟨t, rfl, h⟩)
    · exact .inl h
    · exact .inr ⟨by simp, by simpa using h⟩

/-! ## Separate values -/

theorem not_dashes_prefix {c : Char} {r n : Str} (hc : c ≠ '-')
    (h : "--".toList <+: n) : ¬ n <+: '-' :: c :: r := by
  intro h2
  obtain ⟨t, ht⟩ := h.trans h2
  simp at ht
  exact hc ht.1.symm

/-- The arguments that are not options. -/
theorem parseOptional_none_iff (cd : CharData) (s : Str) :
    parseOptional cd s = .ok none ↔ Plain cd s := by
  unfold Plain
  rw [← or_assoc (a := PlainNegative cd s), ← negativeNumber_iff]
  match s with
  | [] => simp [parseOptional]
  | [c] =>
    by_cases hc : c = '-'
    · subst hc
      have : parseOptional cd ['-'] = .ok none := by
        have h0 : findOption ['-'] = none := by decide +kernel
        simp [parseOptional, h0]
      simp [this]
    · simp [parseOptional, hc]
      exact .inl (by simpa [eq_comm] using hc)
  | c :: d :: r =>
    by_cases hc : c = '-'
    · subst hc
      have h1 : "-".toList <+: '-' :: d :: r := ⟨d :: r, rfl⟩
      have h2 : ¬ '-' :: d :: r = "-".toList := by simp
      simp only [h1, h2, not_true_eq_false, false_or]
      by_cases hd : d = '-'
      · subst hd
        rw [parseOptional_dashes_none]
        have h3 : LikeOption ('-' :: '-' :: r) ↔ LikeLong ('-' :: '-' :: r) := by
          unfold LikeOption LikeLong
          simp
        rw [h3]
      · rw [parseOptional_single_none cd d r hd]
        have h3 : LikeOption ('-' :: d :: r) ↔ d = 'h' ∨ d = 'c' := by
          unfold LikeOption
          constructor
          · rintro (h | h | ⟨n, o, h1, h2, h⟩)
            · left; simpa [eq_comm] using h
            · right; simpa [eq_comm] using h
            · exfalso
              rcases h with h | ⟨x, h⟩
              · rw [← h] at h1
                exact not_dashes_prefix hd h1 (List.prefix_refl _)
              · exact not_dashes_prefix hd h1 (h ▸ List.prefix_append _ _)
          · rintro (rfl | rfl)
            · exact .inl ⟨r, rfl⟩
            · exact .inr (.inl ⟨r, rfl⟩)
        rw [h3, not_or]
    · have h1 : parseOptional cd (c :: d :: r) = .ok none := by simp [parseOptional, hc]
      have h2 : ¬ "-".toList <+: c :: d :: r := by
        rintro ⟨t, ht⟩
        simp at ht
        exact hc ht.1.symm
      simp only [h1, h2, not_false_eq_true, true_or]

/-- The arguments that are options with a value. -/
theorem parseOptional_some_iff (cd : CharData) (s : Str) (o : Opt) (sh : Bool) (x : Option Str)
    (ho : o.Valued) : parseOptional cd s = .ok (some ⟨some o, sh, x⟩) ↔
      sh = false ∧ ((x = none ∧ Names s o) ∨ ∃ n v, x = some v ∧ Names n o ∧ s = n ++ '=' :: v) := by
  match s with
  | [] =>
    constructor
    · intro h; simp [parseOptional] at h
    · rintro ⟨-, ⟨-, ⟨t, ht⟩, -⟩ | ⟨n, v, -, ⟨⟨t, ht⟩, -⟩, h⟩⟩
      · simp at ht
      · simp at h
  | [c] =>
    constructor
    · intro h
      have h0 : findOption ['-'] = none := by decide +kernel
      by_cases hc : c = '-'
      · subst hc; simp [parseOptional, h0] at h
      · simp [parseOptional, hc] at h
    · rintro ⟨-, ⟨-, ⟨t, ht⟩, -⟩ | ⟨n, v, -, ⟨⟨t, ht⟩, -⟩, h⟩⟩
      · simp at ht
      · rw [← ht] at h; simp at h
  | c :: d :: r =>
    by_cases hcd : c = '-' ∧ d = '-'
    · obtain ⟨rfl, rfl⟩ := hcd
      rw [parseOptional_dashes_some]
      refine and_congr_right fun _ => ?_
      constructor
      · rintro ⟨rfl, h⟩
        cases hx : (partitionEq ('-' :: '-' :: r)).2 with
        | none =>
          rw [partitionEq_none _ hx] at h
          exact .inl ⟨rfl, h⟩
        | some v => exact .inr ⟨_, v, rfl, h, (partitionEq_some _ v hx).1⟩
      · rintro (⟨rfl, h⟩ | ⟨n, v, rfl, h, hs⟩)
        · rw [partitionEq_no _ h.no_eq]; exact ⟨rfl, h⟩
        · rw [hs, partitionEq_at _ _ h.no_eq]; exact ⟨rfl, h⟩
    · constructor
      · intro h
        exfalso
        by_cases hc : c = '-'
        · subst hc
          rcases parseOptional_single_some (fun hd => hcd ⟨rfl, hd⟩) h rfl with ⟨h1, -⟩ | ⟨h1, -⟩
          · exact ho.1 h1
          · exact ho.2 h1
        · simp [parseOptional, hc] at h
      · rintro ⟨-, ⟨-, ⟨t, ht⟩, -⟩ | ⟨n, v, -, ⟨⟨t, ht⟩, -⟩, h⟩⟩
        · simp at ht
          exact absurd ⟨ht.1.symm, ht.2.1.symm⟩ hcd
        · rw [← ht] at h
          simp at h
          exact absurd ⟨h.1, h.2.1⟩ hcd

theorem not_plain_dashes (cd : CharData) : ¬ Plain cd "--".toList := by
  rintro (h | h | ⟨h, -⟩)
  · exact h ⟨['-'], rfl⟩
  · cases h
  · exact h (.inr (.inr ⟨"--".toList, .help, List.prefix_refl _, Opt.name_dashes _, .inl rfl⟩))

theorem glued_ne_dashes {n v : Str} {o : Opt} (h : Names n o) : n ++ '=' :: v ≠ "--".toList := by
  obtain ⟨⟨t, rfl⟩, -⟩ := h
  simp

/-! ## The main loop -/

section
variable {K : Type} (cd : CharData) (float : Str → Option K)

/-- The options stored one after the other. -/
def storeAll : List (Opt × Str) → ParseState K → Except Stop (ParseState K)
  | [], st => .ok st
  | p :: l, st =>
    match takeAction cd float p.1 p.2 st with
    | .error e => .error e
    | .ok st => storeAll l st

theorem consume_pair {o : Opt} (ho : o ≠ .help) (sh : Bool) (v : Str) (r : List ArgTok)
    (st : ParseState K) : consume cd float (.opt ⟨some o, sh, none⟩ :: .arg v :: r) st =
      match takeAction cd float o v st with
      | .error e => .error e
      | .ok st => consume cd float r st := by
  cases o
  case help => exact absurd rfl ho
  all_goals rfl

theorem consume_glued {o : Opt} (ho : o ≠ .help) (sh : Bool) (v : Str) (r : List ArgTok)
    (st : ParseState K) : consume cd float (.opt ⟨some o, sh, some v⟩ :: r) st =
      match takeAction cd float o v st with
      | .error e => .error e
      | .ok st => consume cd float r st := by
  cases o
  case help => exact absurd rfl ho
  all_goals rfl

theorem consume_missing {o : Opt} (sh : Bool) (r : List ArgTok)
    (st st' : ParseState K) (h : consume cd float (.opt ⟨some o, sh, none⟩ :: r) st = .ok st') :
    ∃ v r', r = .arg v :: r' := by
  match r with
  | [] => cases o <;> cases h
  | .dashes :: r => cases o <;> cases h
  | .opt t :: r => cases o <;> cases h
  | .arg v :: r => exact ⟨v, r, rfl⟩

theorem takeAction_extras {o : Opt} {v : Str} {st st' : ParseState K}
    (h : takeAction cd float o v st = .ok st') : st'.extras = st.extras := by
  unfold takeAction at h
  split at h
  · cases h; rfl
  all_goals cases h

theorem Reads.run {argv : List Str} {l : List (Opt × Str)} (h : Reads cd argv l) :
    ∃ toks, classify cd argv = .ok toks ∧
      ∀ st : ParseState K, consume cd float toks st = storeAll cd float l st := by
  induction h with
  | nil => exact ⟨[], rfl, fun _ => rfl⟩
  | @pair n o v rest l hn ho hv _ ih =>
    obtain ⟨toks, h1, h2⟩ := ih
    have hp1 := (parseOptional_some_iff cd n o false none ho).2 ⟨rfl, .inl ⟨rfl, hn⟩⟩
    have hp2 := (parseOptional_none_iff cd v).2 hv
    have hv2 : v ≠ "--".toList := fun h => not_plain_dashes cd (h ▸ hv)
    refine ⟨.opt ⟨some o, false, none⟩ :: .arg v :: toks, ?_, ?_⟩
    · simp only [classify, if_neg hn.ne_dashes, if_neg hv2, hp1, hp2, h1]
    · intro st
      rw [consume_pair cd float ho.1]
      simp only [storeAll, h2]
  | @glued n o v rest l hn ho _ ih =>
    obtain ⟨toks, h1, h2⟩ := ih
    have hp1 := (parseOptional_some_iff cd (n ++ '=' :: v) o false (some v) ho).2
      ⟨rfl, .inr ⟨n, v, rfl, hn, rfl⟩⟩
    refine ⟨.opt ⟨some o, false, some v⟩ :: toks, ?_, ?_⟩
    · simp only [classify, if_neg (glued_ne_dashes hn), hp1, h1]
    · intro st
      rw [consume_glued cd float ho.1]
      simp only [storeAll, h2]

theorem Reads.mem {argv : List Str} {l : List (Opt × Str)} (h : Reads cd argv l) {s : Str}
    (hs : s ∈ argv) : s ≠ "--".toList ∧ (Plain cd s ∨ ∃ o : Opt, o.Valued ∧
      (Names s o ∨ ∃ n v, Names n o ∧ s = n ++ '=' :: v)) := by
  induction h with
  | nil => simp at hs
  | @pair n o v rest l hn ho hv _ ih =>
    simp only [List.mem_cons] at hs
    rcases hs with rfl | rfl | hs
    · exact ⟨hn.ne_dashes, .inr ⟨o, ho, .inl hn⟩⟩
    · exact ⟨fun h => not_plain_dashes cd (h ▸ hv), .inl hv⟩
    · exact ih hs
  | @glued n o v rest l hn ho _ ih =>
    simp only [List.mem_cons] at hs
    rcases hs with rfl | hs
    · exact ⟨glued_ne_dashes hn, .inr ⟨o, ho, .inr ⟨n, v, hn, rfl⟩⟩⟩
    · exact ih hs

/-- A described command line names no option but the valued ones. -/
theorem Reads.parse {argv : List Str} {l : List (Opt × Str)} (h : Reads cd argv l) {s : Str}
    (hs : s ∈ argv) : parseOptional cd s = .ok none ∨
      ∃ o : Opt, o.Valued ∧ ∃ sh x, parseOptional cd s = .ok (some ⟨some o, sh, x⟩) := by
  rcases (h.mem cd hs).2 with h1 | ⟨o, ho, h1 | ⟨n, v, h1, h2⟩⟩
  · exact .inl ((parseOptional_none_iff cd s).2 h1)
  · exact .inr ⟨o, ho, false, none, (parseOptional_some_iff cd s o _ _ ho).2 ⟨rfl, .inl ⟨rfl, h1⟩⟩⟩
  · exact .inr ⟨o, ho, false, some v,
      (parseOptional_some_iff cd s o _ _ ho).2 ⟨rfl, .inr ⟨n, v, rfl, h1, h2⟩⟩⟩

theorem Reads.namesConfig {argv : List Str} {l : List (Opt × Str)} (h : Reads cd argv l) :
    namesConfig cd argv = false := by
  unfold Verif.namesConfig
  rw [Bool.and_eq_false_iff]
  right
  rw [List.any_eq_false]
  intro s hs
  rcases h.parse cd ((List.takeWhile_prefix _).subset hs) with h1 | ⟨o, ho, sh, x, h1⟩
  · simp [h1]
  · simp [h1, ho.2]

theorem parseOptional_h : parseOptional cd "-h".toList = .ok (some ⟨some .help, false, none⟩) := by
  have h0 : findOption "-h".toList = some .help := by decide +kernel
  simp only [String.reduceToList] at h0 ⊢
  simp [parseOptional, h0]

theorem parseOptional_help :
    parseOptional cd "--help".toList = .ok (some ⟨some .help, false, none⟩) := by
  have h0 : findOption "--help".toList = some .help := by decide +kernel
  simp only [String.reduceToList] at h0 ⊢
  simp [parseOptional, h0]

theorem consume_mono (toks : List ArgTok) (st st' : ParseState K)
    (h : consume cd float toks st = .ok st') : st.extras ≤ st'.extras := by
  induction hn : toks.length using Nat.strong_induction_on generalizing toks st with
  | _ n ih =>
  match toks with
  | [] => cases h; exact le_rfl
  | .arg _ :: r =>
    have := ih r.length (by simp [← hn]) r _ h rfl
    simp only at this; omega
  | .dashes :: r =>
    have := ih r.length (by simp [← hn]) r _ h rfl
    simp only at this; omega
  | .opt ⟨none, sh, x⟩ :: r =>
    have := ih r.length (by simp [← hn]) r _ h rfl
    simp only at this; omega
  | .opt ⟨some o, sh, some x⟩ :: r =>
    by_cases ho : o = .help
    · subst ho; cases h
    · rw [consume_glued cd float ho] at h
      cases ht : takeAction cd float o x st with
      | error e => rw [ht] at h; cases h
      | ok st2 =>
        rw [ht] at h
        rw [← takeAction_extras cd float ht]
        exact ih r.length (by simp [← hn]) r _ h rfl
  | .opt ⟨some o, sh, none⟩ :: r =>
    obtain ⟨v, r', rfl⟩ := consume_missing cd float sh r st st' h
    by_cases ho : o = .help
    · subst ho; cases h
    · rw [consume_pair cd float ho] at h
      cases ht : takeAction cd float o v st with
      | error e => rw [ht] at h; cases h
      | ok st2 =>
        rw [ht] at h
        rw [← takeAction_extras cd float ht]
        exact ih r'.length (by simp [← hn]; omega) r' _ h rfl

/-- Classification of a non-empty command line. -/
theorem classify_cons {s : Str} {rest : List Str} {toks : List ArgTok}
    (h : classify cd (s :: rest) = .ok toks) :
    (s = "--".toList ∧ toks = .dashes :: rest.map .arg) ∨
      (s ≠ "--".toList ∧ ∃ toks', classify cd rest = .ok toks' ∧
        ((parseOptional cd s = .ok none ∧ toks = .arg s :: toks') ∨
          ∃ t, parseOptional cd s = .ok (some t) ∧ toks = .opt t :: toks')) := by
  unfold classify at h
  by_cases hs : s = "--".toList
  · rw [if_pos hs] at h
    exact .inl ⟨hs, (Except.ok.inj h).symm⟩
  · rw [if_neg hs] at h
    refine .inr ⟨hs, ?_⟩
    cases hp : parseOptional cd s with
    | error e => rw [hp] at h; cases h
    | ok t =>
      rw [hp] at h
      cases hc : classify cd rest with
      | error e => rw [hc] at h; cases h
      | ok toks' =>
        rw [hc] at h
        refine ⟨toks', rfl, ?_⟩
        cases t with
        | none => exact .inl ⟨rfl, (Except.ok.inj h).symm⟩
        | some t => exact .inr ⟨t, rfl, (Except.ok.inj h).symm⟩

/-- A command line that is consumed without remainder. -/
theorem reads_of_consume (argv : List Str) (toks : List ArgTok) (st st' : ParseState K)
    (hc : classify cd argv = .ok toks) (h : consume cd float toks st = .ok st')
    (he : st'.extras = st.extras) :
    (∀ s ∈ argv, s ≠ "--".toList ∧
      ∀ t, parseOptional cd s = .ok (some t) → t.opt ≠ some .help) ∧
    ((∀ s ∈ argv, ∀ t, parseOptional cd s = .ok (some t) → t.opt ≠ some .config) →
      ∃ l, Reads cd argv l) := by
  induction hn : argv.length using Nat.strong_induction_on generalizing argv toks st with
  | _ n ih =>
  have hcontra : ∀ r : List ArgTok,
      consume cd float r { st with extras := st.extras + 1 } ≠ .ok st' := by
    intro r hr
    have := consume_mono cd float _ _ _ hr
    simp only at this
    omega
  match argv with
  | [] => exact ⟨by simp, fun _ => ⟨[], .nil⟩⟩
  | s :: rest =>
    rcases classify_cons cd hc with ⟨-, rfl⟩ | ⟨hs, toks', hc', ⟨hp, rfl⟩ | ⟨t, hp, rfl⟩⟩
    · exact absurd h (hcontra _)
    · exact absurd h (hcontra _)
    · obtain ⟨o?, sh, x⟩ := t
      cases o? with
      | none => exact absurd h (hcontra _)
      | some o =>
      by_cases ho : o = .help
      · subst ho; cases x <;> cases h
      cases x with
      | some v =>
        rw [consume_glued cd float ho] at h
        cases ht : takeAction cd float o v st with
        | error e => rw [ht] at h; cases h
        | ok st2 =>
          rw [ht] at h
          obtain ⟨h1, h2⟩ := ih rest.length (by simp [← hn]) rest toks' st2 hc' h
            (by rw [he, takeAction_extras cd float ht]) rfl
          refine ⟨?_, ?_⟩
          · intro s' hs'
            rcases List.mem_cons.1 hs' with rfl | hs'
            · refine ⟨hs, fun t ht => ?_⟩
              rw [hp] at ht
              cases ht
              simpa using ho
            · exact h1 s' hs'
          · intro hcfg
            have hoc : o ≠ .config := fun h => hcfg s (by simp) _ hp (by rw [h])
            obtain ⟨l, hl⟩ := h2 fun s' hs' => hcfg s' (by simp [hs'])
            obtain ⟨-, hx | ⟨n, v', hv, hnm, rfl⟩⟩ :=
              (parseOptional_some_iff cd s o sh _ ⟨ho, hoc⟩).1 hp
            · cases hx.1
            · cases hv
              exact ⟨_, .glued hnm ⟨ho, hoc⟩ hl⟩
      | none =>
        obtain ⟨v, r', hr⟩ := consume_missing cd float sh toks' st st' h
        subst hr
        match rest, hc', hn with
        | [], hc', _ => cases hc'
        | s2 :: rest, hc', hn =>
        rcases classify_cons cd hc' with ⟨-, h2⟩ | ⟨hs2, toks2, hc2, ⟨hp2, h2⟩ | ⟨t, -, h2⟩⟩
        · cases h2
        · cases h2
          rw [consume_pair cd float ho] at h
          cases ht : takeAction cd float o v st with
          | error e => rw [ht] at h; cases h
          | ok st2 =>
            rw [ht] at h
            obtain ⟨h1, h2⟩ := ih rest.length (by simp [← hn]; omega) rest r' st2 hc2 h
              (by rw [he, takeAction_extras cd float ht]) rfl
            refine ⟨?_, ?_⟩
            · intro s' hs'
              rcases List.mem_cons.1 hs' with rfl | hs'
              · refine ⟨hs, fun t ht => ?_⟩
                rw [hp] at ht
                cases ht
                simpa using ho
              · rcases List.mem_cons.1 hs' with rfl | hs'
                · refine ⟨hs2, fun t ht => ?_⟩
                  rw [hp2] at ht
                  cases ht
                · exact h1 s' hs'
            · intro hcfg
              have hoc : o ≠ .config := fun h => hcfg s (by simp) _ hp (by rw [h])
              obtain ⟨l, hl⟩ := h2 fun s' hs' => hcfg s' (by simp [hs'])
              obtain ⟨-, ⟨-, hx⟩ | ⟨n, v', hv, -⟩⟩ :=
                (parseOptional_some_iff cd s o sh _ ⟨ho, hoc⟩).1 hp
              · exact ⟨_, .pair hx ⟨ho, hoc⟩ ((parseOptional_none_iff cd _).1 hp2) hl⟩
              · cases hv
        · cases h2

/-! ## Values -/

theorem inChoices_iff (choices : List String) (s x : Str) :
    inChoices choices s = .ok x ↔ x = s ∧ s ∈ choices.map String.toList := by
  unfold inChoices
  by_cases h : s ∈ choices.map String.toList
  · rw [if_pos h]
    simp only [Except.ok.injEq]
    exact ⟨fun hx => ⟨hx.symm, h⟩, fun hx => hx.1.symm⟩
  · rw [if_neg h]
    simp [h]

theorem convert_iff (hl : cd.Lawful) (o : Opt) (s : Str) (x : OptType K o) :
    convert cd float o s = .ok x ↔ ValueOf cd float o s x := by
  have hfloat : ∀ y : K, (match float s with
      | none => (.error .valueError : Py K)
      | some x => .ok x) = .ok y ↔ float s = some y := by
    intro y
    cases float s <;> simp
  cases o
  case snapshotTimestep => exact hfloat x
  case flowMapPeriod => exact hfloat x
  case numProcesses => exact pyInt_iff cd hl s x
  case flowGridShape => exact C58_accepts cd hl s x
  case particlesGridShape => exact C58_accepts cd hl s x
  case integrator =>
    refine (inChoices_iff integratorChoices s x).trans ?_
    simp only [ValueOf, integratorChoices, List.map_cons, List.map_nil, List.mem_cons, List.not_mem_nil,
      or_false]
    exact Iff.rfl
  case interpolator =>
    refine (inChoices_iff interpolatorChoices s x).trans ?_
    simp only [ValueOf, interpolatorChoices, List.map_cons, List.map_nil, List.mem_cons, List.not_mem_nil,
      or_false]
    exact Iff.rfl
  case outputFormat =>
    refine (inChoices_iff formatChoices s x).trans ?_
    simp only [ValueOf, formatChoices, List.map_cons, List.map_nil, List.mem_cons, List.not_mem_nil,
      or_false]
    exact Iff.rfl
  all_goals exact ⟨fun h => (Except.ok.inj h).symm, fun h => congrArg Except.ok (Eq.symm h)⟩

theorem convert_error (o : Opt) (s : Str) (e : PyErr) (h : convert cd float o s = .error e) :
    e = .valueError ∨ e = .argumentTypeError := by
  have hfloat : (match float s with
      | none => (.error .valueError : Py K)
      | some x => .ok x) = .error e → e = .valueError ∨ e = .argumentTypeError := by
    cases float s
    · rintro ⟨⟩; exact .inl rfl
    · rintro ⟨⟩
  have hch : ∀ choices, inChoices choices s = .error e →
      e = .valueError ∨ e = .argumentTypeError := by
    intro choices h
    unfold inChoices at h
    split_ifs at h
    cases h
    exact .inr rfl
  cases o
  case snapshotTimestep => exact hfloat h
  case flowMapPeriod => exact hfloat h
  case numProcesses =>
    left
    have h : pyInt cd s = .error e := h
    unfold pyInt at h
    simp only at h
    split at h
    · cases h; rfl
    · split_ifs at h <;> cases h <;> rfl
  case flowGridShape => exact .inl (C58_rejects cd s e h)
  case particlesGridShape => exact .inl (C58_rejects cd s e h)
  case integrator => exact hch _ h
  case interpolator => exact hch _ h
  case outputFormat => exact hch _ h
  all_goals cases h

theorem takeAction_ok {o : Opt} {v : Str} {x : OptType K o} (h : convert cd float o v = .ok x)
    (st : ParseState K) : takeAction cd float o v st =
      .ok ⟨Function.update st.ns o (some x), o :: st.seen, st.extras⟩ := by
  unfold takeAction
  rw [h]

theorem takeAction_error {o : Opt} {v : Str} {e : PyErr} (h : convert cd float o v = .error e)
    (st : ParseState K) : takeAction cd float o v st = .error (.exit 2) := by
  unfold takeAction
  rcases convert_error cd float o v e h with rfl | rfl
  · rw [h]
  · rw [h]

theorem storeAll_ok (l : List (Opt × Str)) (hv : ∀ p ∈ l, ∃ x, convert cd float p.1 p.2 = .ok x)
    (st : ParseState K) : ∃ st', storeAll cd float l st = .ok st' ∧ st'.extras = st.extras ∧
      (∀ o, o ∈ st'.seen ↔ o ∈ st.seen ∨ ∃ v, (o, v) ∈ l) ∧
      (∀ o, (∀ v, (o, v) ∉ l) → st'.ns o = st.ns o) ∧
      ∀ l₁ o v l₂, l = l₁ ++ (o, v) :: l₂ → (∀ w, (o, w) ∉ l₂) →
        ∃ x, st'.ns o = some x ∧ convert cd float o v = .ok x := by
  induction l generalizing st with
  | nil => exact ⟨st, rfl, rfl, by simp, fun _ _ => rfl, by simp⟩
  | cons p l ih =>
    obtain ⟨o, v⟩ := p
    obtain ⟨x, hx⟩ := hv (o, v) (by simp)
    have ht := takeAction_ok cd float hx st
    obtain ⟨st', h1, h2, h3, h4, h5⟩ := ih (fun p hp => hv p (by simp [hp]))
      ⟨Function.update st.ns o (some x), o :: st.seen, st.extras⟩
    refine ⟨st', ?_, h2, ?_, ?_, ?_⟩
    · simp only [storeAll, ht, h1]
    · intro o'
      rw [h3]
      simp only [List.mem_cons, Prod.mk.injEq]
      constructor
      · rintro ((rfl | h) | ⟨w, h⟩)
        · exact .inr ⟨v, .inl ⟨rfl, rfl⟩⟩
        · exact .inl h
        · exact .inr ⟨w, .inr h⟩
      · rintro (h | ⟨w, ⟨rfl, -⟩ | h⟩)
        · exact .inl (.inr h)
        · exact .inl (.inl rfl)
        · exact .inr ⟨w, h⟩
    · intro o' ho'
      have hne : o' ≠ o := by
        rintro rfl
        exact ho' v (by simp)
      rw [h4 o' fun w hw => ho' w (by simp [hw])]
      exact Function.update_of_ne hne _ _
    · intro l₁ o' v' l₂ hl hlast
      cases l₁ with
      | nil =>
        simp only [List.nil_append, List.cons.injEq, Prod.mk.injEq] at hl
        obtain ⟨⟨rfl, rfl⟩, rfl⟩ := hl
        refine ⟨x, ?_, hx⟩
        rw [h4 o hlast]
        exact Function.update_self _ _ _
      | cons q l₁ =>
        simp only [List.cons_append, List.cons.injEq] at hl
        exact h5 l₁ o' v' l₂ hl.2 hlast

theorem storeAll_valid (l : List (Opt × Str)) (st st' : ParseState K)
    (h : storeAll cd float l st = .ok st') : ∀ p ∈ l, ∃ x, convert cd float p.1 p.2 = .ok x := by
  induction l generalizing st with
  | nil => simp
  | cons p l ih =>
    intro q hq
    cases hx : convert cd float p.1 p.2 with
    | error e =>
      rw [storeAll, takeAction_error cd float hx] at h
      cases h
    | ok x =>
      rcases List.mem_cons.1 hq with rfl | hq
      · exact ⟨x, hx⟩
      · rw [storeAll, takeAction_ok cd float hx] at h
        exact ih _ h q hq

theorem last_occurrence (l : List (Opt × Str)) (o : Opt) (h : ∃ v, (o, v) ∈ l) :
    ∃ l₁ v l₂, l = l₁ ++ (o, v) :: l₂ ∧ ∀ w, (o, w) ∉ l₂ := by
  induction l with
  | nil => simp at h
  | cons p l ih =>
    by_cases hl : ∃ v, (o, v) ∈ l
    · obtain ⟨l₁, v, l₂, rfl, h2⟩ := ih hl
      exact ⟨p :: l₁, v, l₂, rfl, h2⟩
    · obtain ⟨v, hv⟩ := h
      rcases List.mem_cons.1 hv with rfl | hv
      · exact ⟨[], v, l, rfl, fun w hw => hl ⟨w, hw⟩⟩
      · exact absurd ⟨v, hv⟩ hl

theorem required_iff (seen : List Opt) :
    allOptions.any (fun o => o.required && !seen.contains o) = true ↔
      ∃ o : Opt, o.Mandatory ∧ o ∉ seen := by
  rw [List.any_eq_true]
  have h1 : ∀ o : Opt, o ∈ allOptions := by
    have h : ∀ o ∈ Opt.all, o ∈ allOptions := by decide +kernel
    exact fun o => h o o.mem_all
  have h2 : ∀ o : Opt, o.required = true ↔ o.Mandatory := by
    intro o
    unfold Opt.Mandatory
    cases o <;> simp [Opt.required]
  constructor
  · rintro ⟨o, -, ho⟩
    simp only [Bool.and_eq_true, Bool.not_eq_true', List.contains_eq_mem,
      decide_eq_false_iff_not] at ho
    exact ⟨o, (h2 o).1 ho.1, ho.2⟩
  · rintro ⟨o, ho, hs⟩
    refine ⟨o, h1 o, ?_⟩
    simp only [Bool.and_eq_true, Bool.not_eq_true', List.contains_eq_mem, decide_eq_false_iff_not]
    exact ⟨(h2 o).2 ho, hs⟩

theorem unset_defaults (o : Opt) (x : Option (OptType K o)) :
    Unset o x ↔ x = Namespace.defaults K o := by
  cases o <;> rfl

/-! ## Errors -/

theorem classify_mem {argv : List Str} {toks : List ArgTok} (h : classify cd argv = .ok toks)
    {t : OptTuple} (ht : .opt t ∈ toks) : ∃ s ∈ argv, parseOptional cd s = .ok (some t) := by
  induction argv generalizing toks with
  | nil => cases h; simp at ht
  | cons s rest ih =>
    rcases classify_cons cd h with ⟨-, rfl⟩ | ⟨-, toks', hc, ⟨hp, rfl⟩ | ⟨t', hp, rfl⟩⟩
    · simp at ht
    · simp only [List.mem_cons, reduceCtorEq, false_or] at ht
      obtain ⟨s', h1, h2⟩ := ih hc ht
      exact ⟨s', by simp [h1], h2⟩
    · simp only [List.mem_cons, ArgTok.opt.injEq] at ht
      rcases ht with rfl | ht
      · exact ⟨s, by simp, hp⟩
      · obtain ⟨s', h1, h2⟩ := ih hc ht
        exact ⟨s', by simp [h1], h2⟩

theorem parseOptional_error (s : Str) (e : Stop) (h : parseOptional cd s = .error e) :
    e = .exit 2 := by
  have hpre : parseByPrefix cd s = .error e → e = .exit 2 := by
    intro h
    unfold parseByPrefix at h
    split at h
    · cases h
    · cases h; rfl
    · split_ifs at h
  match s with
  | [] => cases h
  | c :: cs =>
    unfold parseOptional at h
    by_cases hc : c = '-'
    · simp only [hc, ne_eq, not_true_eq_false, if_false] at h hpre
      cases hf : findOption ('-' :: cs) with
      | some o => rw [hf] at h; cases h
      | none =>
        rw [hf] at h
        by_cases hcs : cs = []
        · simp only [if_pos hcs] at h; cases h
        · simp only [if_neg hcs] at h
          split at h
          · cases h
          · exact hpre h
    · simp only [ne_eq, hc, not_false_eq_true, if_true] at h
      cases h

theorem classify_error (argv : List Str) (e : Stop) (h : classify cd argv = .error e) :
    e = .exit 2 := by
  induction argv with
  | nil => cases h
  | cons s rest ih =>
    unfold classify at h
    split_ifs at h
    cases hp : parseOptional cd s with
    | error e' =>
      rw [hp] at h
      cases h
      exact parseOptional_error cd s _ hp
    | ok t =>
      rw [hp] at h
      cases hc : classify cd rest with
      | error e' => rw [hc] at h; cases h; exact ih hc
      | ok toks => rw [hc] at h; cases h

theorem helpTail_exit (b : Bool) (r : Str) : helpTail b r = .exit 2 ∨ helpTail b r = .exit 0 := by
  induction r with
  | nil => exact .inr rfl
  | cons c r ih =>
    unfold helpTail
    by_cases hc : c = '-'
    · rw [if_pos hc]; exact .inl rfl
    · rw [if_neg hc]
      cases hf : findOption ['-', c] with
      | none => exact .inr rfl
      | some o =>
        by_cases ho : o = .help
        · subst ho
          simp only
          by_cases h1 : r.head? = some '='
          · rw [if_pos h1]; exact .inl rfl
          · rw [if_neg h1]; exact ih
        · have : (if r = [] ∧ b = false then Stop.exit 2 else Stop.exit 0) = .exit 2 ∨
              (if r = [] ∧ b = false then Stop.exit 2 else Stop.exit 0) = .exit 0 := by
            split_ifs
            · exact .inl rfl
            · exact .inr rfl
          cases o <;> first | exact absurd rfl ho | exact this

theorem takeAction_stop {o : Opt} {v : Str} {st : ParseState K} {e : Stop}
    (h : takeAction cd float o v st = .error e) : e = .exit 2 := by
  cases hx : convert cd float o v with
  | error e' => rw [takeAction_error cd float hx] at h; cases h; rfl
  | ok x => rw [takeAction_ok cd float hx] at h; cases h

theorem consume_error (toks : List ArgTok) (st : ParseState K) (e : Stop)
    (h : consume cd float toks st = .error e) : e = .exit 2 ∨ (e = .exit 0 ∧
      ∃ t, .opt t ∈ toks ∧ t.opt = some .help ∧ (t.short = true ∨ t.explicit = none)) := by
  induction hn : toks.length using Nat.strong_induction_on generalizing toks st with
  | _ n ih =>
  have lift : ∀ (r pre : List ArgTok) (st : ParseState K), pre ++ r = toks → pre ≠ [] →
      consume cd float r st = .error e → e = .exit 2 ∨ (e = .exit 0 ∧
      ∃ t, .opt t ∈ toks ∧ t.opt = some .help ∧ (t.short = true ∨ t.explicit = none)) := by
    intro r pre st hr hpre h
    have hlen : r.length < n := by
      rw [← hn, ← hr, List.length_append]
      have := List.length_pos_iff.2 hpre
      omega
    rcases ih _ hlen r st h rfl with h | ⟨h1, t, h2, h3⟩
    · exact .inl h
    · refine .inr ⟨h1, t, ?_, h3⟩
      rw [← hr]
      exact List.mem_append_right _ h2
  match toks, lift with
  | [], _ => cases h
  | .arg a :: r, lift => exact lift r [.arg a] _ rfl (by simp) h
  | .dashes :: r, lift => exact lift r [.dashes] _ rfl (by simp) h
  | .opt ⟨none, sh, x⟩ :: r, lift => exact lift r [_] _ rfl (by simp) h
  | .opt ⟨some o, sh, some x⟩ :: r, lift =>
    by_cases ho : o = .help
    · subst ho
      have h : (Except.error (if sh then helpTail (nextIsArg r) x else .exit 2) :
        Except Stop (ParseState K)) = .error e := h
      simp only [Except.error.injEq] at h
      cases sh with
      | false => exact .inl h.symm
      | true =>
        simp only [if_true] at h
        rcases helpTail_exit (nextIsArg r) x with h2 | h2
        · exact .inl (h.symm.trans h2)
        · exact .inr ⟨h.symm.trans h2, _, List.mem_cons_self, rfl, .inl rfl⟩
    · rw [consume_glued cd float ho] at h
      cases ht : takeAction cd float o x st with
      | error e' => rw [ht] at h; cases h; exact .inl (takeAction_stop cd float ht)
      | ok st2 => rw [ht] at h; exact lift r [_] _ rfl (by simp) h
  | .opt ⟨some o, sh, none⟩ :: r, lift =>
    by_cases ho : o = .help
    · subst ho
      have h : (Except.error (.exit 0) : Except Stop (ParseState K)) = .error e := h
      cases h
      exact .inr ⟨rfl, _, List.mem_cons_self, rfl, .inr rfl⟩
    · match r, lift with
      | .arg v :: r, lift =>
        rw [consume_pair cd float ho] at h
        cases ht : takeAction cd float o v st with
        | error e' => rw [ht] at h; cases h; exact .inl (takeAction_stop cd float ht)
        | ok st2 => rw [ht] at h; exact lift r [_, _] _ rfl (by simp) h
      | [], _ =>
        left
        cases o <;> first | exact absurd rfl ho | (cases h; rfl)
      | .dashes :: r, _ =>
        left
        cases o <;> first | exact absurd rfl ho | (cases h; rfl)
      | .opt t :: r, _ =>
        left
        cases o <;> first | exact absurd rfl ho | (cases h; rfl)

theorem optTuple_cases {s : Str} {t : OptTuple} {o : Opt} (h : parseOptional cd s = .ok (some t))
    (ht : t.opt = some o) : ("-h".toList <+: s ∧ o = .help) ∨ ("-c".toList <+: s ∧ o = .config) ∨
      (t.short = false ∧ (t.explicit = none ∧ Names s o ∨
        ∃ n x, t.explicit = some x ∧ Names n o ∧ s = n ++ '=' :: x)) := by
  match s with
  | [] => simp [parseOptional] at h
  | [c] =>
    have h0 : findOption ['-'] = none := by decide +kernel
    by_cases hc : c = '-'
    · subst hc; simp [parseOptional, h0] at h
    · simp [parseOptional, hc] at h
  | c :: d :: r =>
    by_cases hc : c = '-'
    · subst hc
      by_cases hd : d = '-'
      · subst hd
        obtain ⟨o', sh, x⟩ := t
        cases ht
        obtain ⟨h1, h2, h3⟩ := (parseOptional_dashes_some cd r o sh x).1 h
        refine .inr (.inr ⟨h1, ?_⟩)
        cases hx : (partitionEq ('-' :: '-' :: r)).2 with
        | none =>
          rw [partitionEq_none _ hx] at h3
          exact .inl ⟨h2.trans hx, h3⟩
        | some v => exact .inr ⟨_, v, h2.trans hx, h3, (partitionEq_some _ v hx).1⟩
      · rcases parseOptional_single_some hd h ht with ⟨h1, rfl⟩ | ⟨h1, rfl⟩
        · exact .inl ⟨⟨r, rfl⟩, h1⟩
        · exact .inr (.inl ⟨⟨r, rfl⟩, h1⟩)
    · simp [parseOptional, hc] at h

end

end Verif
