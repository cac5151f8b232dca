import Verif.Props.Config

/-!
# C100: keys that are repeated in a configuration file
-/

namespace Verif

/-- `v` is the value of the last entry with the key `key`. -/
def LastEntry (es : List (Str × Str)) (key v : Str) : Prop :=
  ∃ a b, es = a ++ (key, v) :: b ∧ ∀ w, (key, w) ∉ b

theorem LastEntry.mem {es : List (Str × Str)} {key v : Str} (h : LastEntry es key v) :
    (key, v) ∈ es := by
  obtain ⟨a, b, rfl, -⟩ := h
  simp

theorem lastEntry_snoc (es : List (Str × Str)) (k v key w : Str) :
    LastEntry (es ++ [(k, v)]) key w ↔ (key = k ∧ w = v) ∨ (key ≠ k ∧ LastEntry es key w) := by
  constructor
  · rintro ⟨a, b, hab, hb⟩
    rcases List.eq_nil_or_concat b with rfl | ⟨b', x, rfl⟩
    · have := List.append_inj' hab (by simp)
      have h2 := this.2
      simp only [List.cons.injEq, Prod.mk.injEq, and_true] at h2
      exact .inl ⟨h2.1.symm, h2.2.symm⟩
    · rw [List.concat_eq_append] at hab hb
      rw [← List.cons_append, ← List.append_assoc] at hab
      obtain ⟨h1, h2⟩ := List.append_inj' hab (by simp)
      simp only [List.cons.injEq, and_true] at h2
      refine .inr ⟨?_, a, b', h1, fun w hw => hb w (by simp [hw])⟩
      rintro rfl
      exact hb v (by simp [← h2])
  · rintro (⟨rfl, rfl⟩ | ⟨hne, a, b, rfl, hb⟩)
    · exact ⟨es, [], rfl, by simp⟩
    · refine ⟨a, b ++ [(k, v)], by simp, fun w hw => ?_⟩
      rcases List.mem_append.1 hw with hw | hw
      · exact hb w hw
      · simp only [List.mem_singleton, Prod.mk.injEq] at hw
        exact hne hw.1

theorem lastEntry_exists {es : List (Str × Str)} {key : Str} (h : key ∈ es.map Prod.fst) :
    ∃ v, LastEntry es key v := by
  induction es using List.reverseRecOn with
  | nil => simp at h
  | append_singleton es e ih =>
    obtain ⟨k, v⟩ := e
    by_cases hk : key = k
    · exact ⟨v, (lastEntry_snoc ..).2 (.inl ⟨hk, rfl⟩)⟩
    · obtain ⟨w, hw⟩ := ih (by simpa [hk] using h)
      exact ⟨w, (lastEntry_snoc ..).2 (.inr ⟨hk, hw⟩)⟩

theorem configLines_fold {cd : CharData} (hm : Marks cd.isSpace) (json : Str → List Str)
    {lines : List Str} {es : List (Str × Str)} (h : LinesSay cd.isSpace lines es)
    (items : List (Str × CfgValue)) :
    configLines cd json lines items =
      some (es.foldl (fun it e => dictSet it e.1 (entryValue json e.2)) items) := by
  induction h generalizing items with
  | nil => simp [configLines]
  | silent hs _ ih => rw [configLines_silent hm json hs, ih items]
  | entry he _ ih => rw [configLines_entry hm json he, ih, List.foldl_cons]

/-- The dictionary after the entries `es`. -/
structure DictOf (es ds : List (Str × Str)) : Prop where
  distinct : (ds.map Prod.fst).Nodup
  last : ∀ key v, (key, v) ∈ ds ↔ LastEntry es key v
  order : (ds.map Prod.fst).Pairwise fun a b =>
    (es.map Prod.fst).idxOf a < (es.map Prod.fst).idxOf b

theorem DictOf.key {es ds : List (Str × Str)} (h : DictOf es ds) (key : Str) :
    key ∈ ds.map Prod.fst ↔ key ∈ es.map Prod.fst := by
  constructor
  · intro hk
    obtain ⟨⟨k, v⟩, hm, rfl⟩ := List.mem_map.1 hk
    exact List.mem_map.2 ⟨_, ((h.last k v).1 hm).mem, rfl⟩
  · intro hk
    obtain ⟨v, hv⟩ := lastEntry_exists hk
    exact List.mem_map.2 ⟨_, (h.last key v).2 hv, rfl⟩

theorem dictOf_fold (es : List (Str × Str)) :
    ∃ ds, DictOf es ds ∧ es.foldl (fun it e => dictSet it e.1 (.text e.2)) [] =
      ds.map fun e => (e.1, CfgValue.text e.2) := by
  induction es using List.reverseRecOn with
  | nil => exact ⟨[], ⟨by simp, fun key v => by simp [LastEntry], by simp⟩, rfl⟩
  | append_singleton es e ih =>
    obtain ⟨k, v⟩ := e
    obtain ⟨ds, hd, hf⟩ := ih
    rw [List.foldl_append, hf]
    by_cases hk : k ∈ ds.map Prod.fst
    · have hk' : k ∈ es.map Prod.fst := (hd.key k).1 hk
      have hkeys : (ds.map fun e => if e.1 = k then (k, v) else e).map Prod.fst =
          ds.map Prod.fst := by
        rw [List.map_map]
        refine List.map_congr_left fun e _ => ?_
        simp only [Function.comp]
        split_ifs with h
        · exact h.symm
        · rfl
      refine ⟨ds.map fun e => if e.1 = k then (k, v) else e, ⟨?_, ?_, ?_⟩, ?_⟩
      · rw [hkeys]; exact hd.distinct
      · intro key w
        rw [lastEntry_snoc, ← hd.last]
        constructor
        · intro h
          obtain ⟨e, he, hew⟩ := List.mem_map.1 h
          split_ifs at hew with hek
          · cases hew; exact .inl ⟨rfl, rfl⟩
          · subst hew; exact .inr ⟨hek, he⟩
        · rintro (⟨rfl, rfl⟩ | ⟨hne, h⟩)
          · obtain ⟨e, he, hek⟩ := List.mem_map.1 hk
            exact List.mem_map.2 ⟨e, he, if_pos hek⟩
          · exact List.mem_map.2 ⟨_, h, if_neg hne⟩
      · rw [hkeys]
        refine List.Pairwise.imp_of_mem ?_ hd.order
        intro a b ha hb hab
        rw [List.map_append, List.idxOf_append_of_mem ((hd.key a).1 ha),
          List.idxOf_append_of_mem ((hd.key b).1 hb)]
        exact hab
      · simp only [List.foldl_cons, List.foldl_nil, dictSet]
        rw [if_pos (by
          obtain ⟨e, he, hek⟩ := List.mem_map.1 hk
          exact List.any_eq_true.2 ⟨_, List.mem_map.2 ⟨e, he, rfl⟩, by simpa using hek⟩),
          List.map_map, List.map_map]
        refine List.map_congr_left fun e _ => ?_
        simp only [Function.comp]
        split_ifs <;> rfl
    · have hk' : k ∉ es.map Prod.fst := fun h => hk ((hd.key k).2 h)
      refine ⟨ds ++ [(k, v)], ⟨?_, ?_, ?_⟩, ?_⟩
      · rw [List.map_append, List.nodup_append]
        refine ⟨hd.distinct, by simp, ?_⟩
        rintro a ha b hb rfl
        simp only [List.map_cons, List.map_nil, List.mem_singleton] at hb
        exact hk (hb ▸ ha)
      · intro key w
        rw [lastEntry_snoc, ← hd.last, List.mem_append, List.mem_singleton, Prod.mk.injEq]
        constructor
        · rintro (h | h)
          · refine .inr ⟨?_, h⟩
            rintro rfl
            exact hk (List.mem_map.2 ⟨_, h, rfl⟩)
          · exact .inl h
        · rintro (h | h)
          · exact .inr h
          · exact .inl h.2
      · rw [List.map_append (l₁ := ds), List.pairwise_append]
        refine ⟨?_, by simp, ?_⟩
        · refine List.Pairwise.imp_of_mem ?_ hd.order
          intro a b ha hb hab
          rw [List.map_append, List.idxOf_append_of_mem ((hd.key a).1 ha),
            List.idxOf_append_of_mem ((hd.key b).1 hb)]
          exact hab
        · intro a ha b hb
          simp only [List.map_cons, List.map_nil, List.mem_singleton] at hb
          subst hb
          rw [List.map_append, List.idxOf_append_of_mem ((hd.key a).1 ha),
            List.idxOf_append_of_notMem hk']
          have := List.idxOf_lt_length_iff.2 ((hd.key a).1 ha)
          omega
      · simp only [List.foldl_cons, List.foldl_nil, dictSet]
        rw [if_neg, List.map_append]
        · rfl
        · intro h
          obtain ⟨x, hx, hxk⟩ := List.any_eq_true.1 h
          obtain ⟨e, he, rfl⟩ := List.mem_map.1 hx
          exact hk (List.mem_map.2 ⟨e, he, by simpa using hxk⟩)

section
variable {K : Type} (cd : CharData) (float : Str → Option K) (json : Str → List Str)
  (fs : Str → Option Str)

/-- **C100** (repeated keys).  A file whose lines are entries, with any keys repeated, is read as one
entry for each key, with the value of its last line, in the order of the first lines. -/
theorem C100_repeated (hm : Marks cd.isSpace) {text : Str} {lines : List Str}
    {es : List (Str × Str)} (ht : HasLines text lines) (hs : LinesSay cd.isSpace lines es)
    (hb : ∀ e ∈ es, e.2.head? ≠ some '[' ∨ e.2.getLast? ≠ some ']') :
    ∃ ds : List (Str × Str), configItems cd json text = some (ds.map fun e => (e.1, .text e.2)) ∧
      (ds.map Prod.fst).Nodup ∧ (∀ key v, (key, v) ∈ ds ↔ LastEntry es key v) ∧
      (ds.map Prod.fst).Pairwise fun a b =>
        (es.map Prod.fst).idxOf a < (es.map Prod.fst).idxOf b := by
  obtain ⟨ds, hd, hf⟩ := dictOf_fold es
  refine ⟨ds, ?_, hd.distinct, hd.last, hd.order⟩
  rw [configItems_lines json ht, configLines_fold hm json hs, ← hf]
  congr 1
  refine List.foldl_ext _ _ _ fun it e he => ?_
  unfold entryValue
  rw [if_neg (by
    rintro ⟨h1, h2⟩
    rcases hb e he with h | h
    · exact h h1
    · exact h h2)]

/-- **C100** (the documented use with repeated keys).  `pyftle -c FILE`, where the lines are entries
for options, each option under one key: the result is the meaning of the last values, listed in any
order; the replaced ones are not looked at. -/
theorem C100_documented_repeated (hl : cd.Lawful) (hm : Marks cd.isSpace) {p text : Str}
    (hp : Plain cd p) (hne : p ≠ []) (hfile : fs p = some text) {lines : List Str}
    {es : List (Str × Str)} (ht : HasLines text lines) (hs : LinesSay cd.isSpace lines es)
    (hb : ∀ e ∈ es, e.2.head? ≠ some '[' ∨ e.2.getLast? ≠ some ']')
    (hopt : ∀ e ∈ es, ∃ o : Opt, KeyFor e.1 o ∧ o.Valued)
    (hone : ∀ e ∈ es, ∀ e' ∈ es, ∀ o, KeyFor e.1 o → KeyFor e'.1 o → e.1 = e'.1)
    {l : List (Opt × Str)} (hl1 : (l.map Prod.fst).Nodup)
    (hl2 : ∀ o v, (o, v) ∈ l ↔ ∃ key, KeyFor key o ∧ LastEntry es key v) (ns : Namespace K) :
    parseCommand cd float json fs ["-c".toList, p] = .ok ns ↔ Denotes cd float l ns := by
  obtain ⟨ds, hitems, hnd, hlast, -⟩ := C100_repeated cd json hm ht hs hb
  have hmem : ∀ e ∈ ds, e ∈ es := fun e he => ((hlast e.1 e.2).1 he).mem
  have hex : ∀ ds' : List (Str × Str), (∀ e ∈ ds', e ∈ es) → ∃ m : List (Opt × Str),
      List.Forall₂ (fun e q => KeyFor e.1 q.1 ∧ q.2 = e.2) ds' m ∧ ∀ q ∈ m, q.1.Valued := by
    intro ds'
    induction ds' with
    | nil => exact fun _ => ⟨[], .nil, by simp⟩
    | cons e ds' ih =>
      intro h
      obtain ⟨o, ho, hv⟩ := hopt e (h e (by simp))
      obtain ⟨m, h1, h2⟩ := ih fun e he => h e (by simp [he])
      refine ⟨(o, e.2) :: m, .cons ⟨ho, rfl⟩ h1, ?_⟩
      intro q hq
      rcases List.mem_cons.1 hq with rfl | hq
      · exact hv
      · exact h2 q hq
  obtain ⟨m, hm1, hm2⟩ := hex ds hmem
  rw [documented_items cd float json fs hl hp hne hfile hitems hm1 hm2 ns]
  -- the two lists are permutations of each other
  have hmnd : (m.map Prod.fst).Nodup := by
    have : ∀ (ds' : List (Str × Str)) (m' : List (Opt × Str)),
        List.Forall₂ (fun e q => KeyFor e.1 q.1 ∧ q.2 = e.2) ds' m' → (∀ e ∈ ds', e ∈ es) →
        (ds'.map Prod.fst).Nodup → (m'.map Prod.fst).Nodup := by
      intro ds' m' h
      induction h with
      | nil => simp
      | @cons e q ds' m' he h' ih =>
        intro hsub hnd'
        rw [List.map_cons, List.nodup_cons] at hnd' ⊢
        refine ⟨fun hq => ?_, ih (fun e he => hsub e (by simp [he])) hnd'.2⟩
        obtain ⟨q', hq', hqq⟩ := List.mem_map.1 hq
        obtain ⟨hlen, hget⟩ := List.forall₂_iff_get.1 h'
        obtain ⟨e', he', hk'⟩ : ∃ e' ∈ ds', KeyFor e'.1 q'.1 := by
          obtain ⟨i, hi, rfl⟩ := List.mem_iff_getElem.1 hq'
          exact ⟨ds'[i]'(by omega), List.getElem_mem _, (hget i (by omega) hi).1⟩
        rw [hqq] at hk'
        exact hnd'.1 (List.mem_map.2 ⟨e', he', (hone e (hsub e (by simp)) e'
          (hsub e' (by simp [he'])) _ he.1 hk').symm⟩)
    exact this ds m hm1 hmem hnd
  have hiff : ∀ q, q ∈ m ↔ q ∈ l := by
    rintro ⟨o, v⟩
    rw [hl2]
    obtain ⟨hlen, hget⟩ := List.forall₂_iff_get.1 hm1
    constructor
    · intro hq
      obtain ⟨i, hi, hqi⟩ := List.mem_iff_getElem.1 hq
      have := hget i (by omega) hi
      simp only [List.get_eq_getElem, hqi] at this
      refine ⟨(ds[i]'(by omega)).1, this.1, ?_⟩
      rw [this.2]
      exact (hlast _ _).1 (List.getElem_mem _)
    · rintro ⟨key, hk, hkv⟩
      obtain ⟨i, hi, hei⟩ := List.mem_iff_getElem.1 ((hlast key v).2 hkv)
      have := hget i hi (by omega)
      simp only [List.get_eq_getElem, hei] at this
      have ho : (m[i]'(by omega)).1 = o := by
        have h1 := (keyOption_iff key o).2 hk
        rw [(keyOption_iff key _).2 this.1] at h1
        cases h1
        rfl
      have : m[i]'(by omega) = (o, v) := Prod.ext ho this.2
      rw [← this]
      exact List.getElem_mem _
  have hperm : m.Perm l :=
    (List.perm_ext_iff_of_nodup (List.Nodup.of_map _ hmnd) (List.Nodup.of_map _ hl1)).2 hiff
  exact ⟨fun h => h.perm cd float hperm hmnd, fun h => h.perm cd float hperm.symm hl1⟩

end

/-- A quoted value which no format has. -/
theorem cfgWrong : Entry asciiData.isSpace "output_format = \"xyz\"".toList
    "output_format".toList "xyz".toList := by
  refine ⟨⟨by simp, by simp [asciiData], by simp⟩, [], " = ".toList, "\"xyz\"".toList, [], by simp,
    by simp [Blank], ?_, ?_, .inl (by simp [Blank])⟩
  · exact .sign (a := [' ']) (c := '=') (b := [' ']) (.inr rfl) (by simp [Blank, asciiData])
      (by simp [Blank, asciiData])
  · exact .quoted (v := "xyz".toList) (q := '"') (.inr rfl) (by simp) (by simp)

/-- The documented use with a repeated key, the first value being invalid: the hypotheses of
`C100_documented_repeated` and `C100_repeated`. -/
example (fs : Str → Option Str) (json : Str → List Str) (ns : Namespace ℚ)
    (h : fs ['f'] = some "output_format = \"xyz\"\noutput_format = \"vtk\"".toList) :
    parseCommand asciiData cfgFloat json fs ["-c".toList, ['f']] = .ok ns ↔
      Denotes asciiData cfgFloat [(.outputFormat, "vtk".toList)] ns := by
  have hk : KeyFor "output_format".toList .outputFormat := .inr (by decide)
  have hkeys : ∀ e ∈ [("output_format".toList, "xyz".toList), ("output_format".toList, "vtk".toList)],
      e.1 = "output_format".toList := by
    intro e he
    rcases List.mem_cons.1 he with rfl | he
    · rfl
    · rw [List.mem_singleton.1 he]
  refine C100_documented_repeated asciiData cfgFloat json fs asciiData_lawful asciiData_marks
    (.inl (by decide)) (by simp) h
    (lines := ["output_format = \"xyz\"".toList, "output_format = \"vtk\"".toList])
    (es := [("output_format".toList, "xyz".toList), ("output_format".toList, "vtk".toList)])
    ⟨by simp, .inl (by simp)⟩ (.entry cfgWrong (.entry cfgQuoted .nil)) (by simp)
    (fun e he => ⟨.outputFormat, (hkeys e he).symm ▸ hk, by simp [Opt.Valued]⟩)
    (fun e he e' he' _ _ _ => (hkeys e he).trans (hkeys e' he').symm) (by simp) ?_ ns
  intro o v
  constructor
  · intro hm
    simp only [List.mem_singleton, Prod.mk.injEq] at hm
    obtain ⟨rfl, rfl⟩ := hm
    exact ⟨_, hk, [("output_format".toList, "xyz".toList)], [], rfl, by simp⟩
  · rintro ⟨key, hkey, hl⟩
    rw [show [("output_format".toList, "xyz".toList), ("output_format".toList, "vtk".toList)] =
      [("output_format".toList, "xyz".toList)] ++ [("output_format".toList, "vtk".toList)] from rfl,
      lastEntry_snoc] at hl
    rcases hl with ⟨rfl, rfl⟩ | ⟨hne, hl⟩
    · have h1 := (keyOption_iff _ o).2 hkey
      rw [(keyOption_iff _ _).2 hk] at h1
      cases h1
      simp
    · have := hl.mem
      rw [List.mem_singleton, Prod.mk.injEq] at this
      exact absurd this.1 hne

/-- With two spellings of the key of an option the last line for it need not count: the entries of
this file are `integrator: ab2` and `--integrator: rk4`, in this order. -/
example (json : Str → List Str) : configItems asciiData json
    "integrator: euler\n--integrator: rk4\nintegrator: ab2".toList =
      some [("integrator".toList, .text "ab2".toList),
        ("--integrator".toList, .text "rk4".toList)] := by
  rfl

end Verif
