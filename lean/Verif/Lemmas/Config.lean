import Verif.Lemmas.Args
import Verif.Spec.ConfigFile

/-!
# Lemmas about configuration files
-/

namespace Verif

/-! ## The command line -/

theorem Writes.unique {n : Str} {o o' : Opt} (h : Writes n o) (h' : Writes n o') : o = o' := by
  rcases h with h | ⟨rfl, rfl⟩
  · rcases h' with h' | ⟨rfl, -⟩
    · exact h.unique h'
    · obtain ⟨⟨t, ht⟩, -⟩ := h
      simp at ht
  · rcases h' with h' | ⟨-, rfl⟩
    · obtain ⟨⟨t, ht⟩, -⟩ := h'
      simp at ht
    · rfl

theorem Writes.no_eq {n : Str} {o : Opt} (h : Writes n o) : '=' ∉ n := by
  rcases h with h | ⟨rfl, -⟩
  · exact h.no_eq
  · decide

theorem Writes.ne_dashes {n : Str} {o : Opt} (h : Writes n o) : n ≠ "--".toList := by
  rcases h with h | ⟨rfl, -⟩
  · exact h.ne_dashes
  · decide

theorem Writes.glued_ne_dashes {n v : Str} {o : Opt} (h : Writes n o) :
    n ++ '=' :: v ≠ "--".toList := by
  rcases h with h | ⟨rfl, -⟩
  · exact Verif.glued_ne_dashes h
  · simp

/-- The option `-c`. -/
theorem parseOptional_c (cd : CharData) (r : Str) :
    parseOptional cd ('-' :: 'c' :: r) = .ok (some
      (if r = [] then ⟨some .config, false, none⟩
      else if r.head? = some '=' then ⟨some .config, false, some r.tail⟩
      else ⟨some .config, true, some r⟩)) := by
  by_cases hr : r = []
  · subst hr
    have h0 : findOption ['-', 'c'] = some .config := by decide +kernel
    simp [parseOptional, h0]
  rw [if_neg hr]
  have hf : findOption ('-' :: 'c' :: r) = none := by
    rw [findOption_single 'c' r (by decide)]
    simp [hr]
  have hpre : parseByPrefix cd ('-' :: 'c' :: r) = .ok (some ⟨some .config, true, some r⟩) := by
    unfold parseByPrefix
    rw [optionTuples_single 'c' r (by decide)]
    simp
  match r, hr with
  | c :: r, _ =>
  by_cases hc : c = '='
  · subst hc
    have h0 : findOption ['-', 'c'] = some .config := by decide +kernel
    have h1 : partitionEq ('-' :: 'c' :: '=' :: r) = (['-', 'c'], some r) := by simp [partitionEq]
    simp [parseOptional, hf, h1, h0]
  · have h1 : (partitionEq ('-' :: 'c' :: c :: r)).1 = '-' :: 'c' :: c :: (partitionEq r).1 := by
      simp [partitionEq, hc]
    have h2 : findOption ('-' :: 'c' :: c :: (partitionEq r).1) = none := by
      rw [findOption_single 'c' _ (by decide)]
      simp
    simp only [List.head?_cons, Option.some.injEq, hc, if_false]
    unfold parseOptional
    simp only [hf, h1, h2, hpre, ne_eq, not_true_eq_false, if_false, reduceCtorEq]
    cases (partitionEq ('-' :: 'c' :: c :: r)).2 <;> rfl

/-- The options other than `--help`. -/
theorem parseOptional_writes (cd : CharData) (s : Str) (o : Opt) (sh : Bool) (x : Option Str)
    (ho : o ≠ .help) : parseOptional cd s = .ok (some ⟨some o, sh, x⟩) ↔
      (sh = false ∧ ((x = none ∧ Writes s o) ∨
        ∃ n v, x = some v ∧ Writes n o ∧ s = n ++ '=' :: v)) ∨
      (sh = true ∧ o = .config ∧ ∃ v, x = some v ∧ s = "-c".toList ++ v ∧ v ≠ [] ∧
        v.head? ≠ some '=') := by
  by_cases hs : ∃ r, s = '-' :: 'c' :: r
  · obtain ⟨r, rfl⟩ := hs
    have hnn : ∀ n o', Names n o' → ¬ n <+: '-' :: 'c' :: r := fun n o' h =>
      not_dashes_prefix (by decide) h.1
    rw [parseOptional_c]
    constructor
    · intro h
      simp only [Except.ok.injEq, Option.some.injEq] at h
      split_ifs at h with h1 h2
      · cases h
        subst h1
        exact .inl ⟨rfl, .inl ⟨rfl, .inr ⟨rfl, rfl⟩⟩⟩
      · cases h
        match r, h2 with
        | c :: r, h2 =>
          simp at h2
          subst h2
          exact .inl ⟨rfl, .inr ⟨"-c".toList, r, rfl, .inr ⟨rfl, rfl⟩, rfl⟩⟩
      · cases h
        exact .inr ⟨rfl, rfl, r, rfl, rfl, h1, h2⟩
    · rintro (⟨rfl, ⟨rfl, h⟩ | ⟨n, v, rfl, h, hn⟩⟩ | ⟨rfl, rfl, v, rfl, hv, h1, h2⟩)
      · rcases h with h | ⟨h, rfl⟩
        · exact absurd (List.prefix_refl _) (hnn _ _ h)
        · simp at h
          simp [h]
      · rcases h with h | ⟨rfl, rfl⟩
        · exact absurd (hn ▸ List.prefix_append _ _) (hnn _ _ h)
        · simp at hn
          simp [hn]
      · simp at hv
        subst hv
        simp [h1, h2]
  · have hshort : ∀ v : Str, s ≠ "-c".toList ++ v := fun v h => hs ⟨v, by simpa using h⟩
    by_cases hoc : o = .config
    · subst hoc
      match s with
      | [] =>
        constructor
        · intro h; simp [parseOptional] at h
        · rintro (⟨-, ⟨-, ⟨⟨t, ht⟩, -⟩ | ⟨h, -⟩⟩ | ⟨n, v, -, -, h⟩⟩ | ⟨-, -, v, -, hv, -⟩)
          · simp at ht
          · simp at h
          · simp at h
          · exact absurd hv (hshort v)
      | [c] =>
        constructor
        · intro h
          have h0 : findOption ['-'] = none := by decide +kernel
          by_cases hc : c = '-'
          · subst hc; simp [parseOptional, h0] at h
          · simp [parseOptional, hc] at h
        · rintro (⟨-, ⟨-, ⟨⟨t, ht⟩, -⟩ | ⟨h, -⟩⟩ | ⟨n, v, -, ⟨⟨t, ht⟩, -⟩ | ⟨h, -⟩, h'⟩⟩ | ⟨-, -, v, -, hv, -⟩)
          · simp at ht
          · simp at h
          · rw [← ht] at h'; simp at h'
          · rw [h] at h'; simp at h'
          · exact absurd hv (hshort v)
      | c :: d :: r =>
        by_cases hcd : c = '-' ∧ d = '-'
        · obtain ⟨rfl, rfl⟩ := hcd
          rw [parseOptional_dashes_some]
          constructor
          · rintro ⟨rfl, rfl, h⟩
            left
            refine ⟨rfl, ?_⟩
            cases hx : (partitionEq ('-' :: '-' :: r)).2 with
            | none =>
              rw [partitionEq_none _ hx] at h
              exact .inl ⟨rfl, .inl h⟩
            | some v => exact .inr ⟨_, v, rfl, .inl h, (partitionEq_some _ v hx).1⟩
          · rintro (⟨rfl, ⟨rfl, h⟩ | ⟨n, v, rfl, h, hn⟩⟩ | ⟨-, -, v, -, hv, -⟩)
            · rcases h with h | ⟨h, -⟩
              · rw [partitionEq_no _ h.no_eq]; exact ⟨rfl, rfl, h⟩
              · simp at h
            · rcases h with h | ⟨rfl, -⟩
              · rw [hn, partitionEq_at _ _ h.no_eq]; exact ⟨rfl, rfl, h⟩
              · simp at hn
            · exact absurd hv (hshort v)
        · constructor
          · intro h
            exfalso
            by_cases hc : c = '-'
            · subst hc
              have hd : d ≠ '-' := fun hd => hcd ⟨rfl, hd⟩
              rcases parseOptional_single_some hd h rfl with ⟨h1, -⟩ | ⟨-, h1⟩
              · cases h1
              · exact hs ⟨r, by rw [h1]⟩
            · simp [parseOptional, hc] at h
          · rintro (⟨-, ⟨-, ⟨⟨t, ht⟩, -⟩ | ⟨h, -⟩⟩ | ⟨n, v, -, ⟨⟨t, ht⟩, -⟩ | ⟨h, -⟩, h'⟩⟩ | ⟨-, -, v, -, hv, -⟩)
            · simp at ht
              exact absurd ⟨ht.1.symm, ht.2.1.symm⟩ hcd
            · exact absurd ⟨r, by simp at h ⊢; exact ⟨h.1, h.2.1⟩⟩ hs
            · rw [← ht] at h'
              simp at h'
              exact absurd ⟨h'.1, h'.2.1⟩ hcd
            · rw [h] at h'
              simp at h'
              exact absurd ⟨r, by simp [h'.1, h'.2.1]⟩ hs
            · exact absurd hv (hshort v)
    · rw [parseOptional_some_iff cd s o sh x ⟨ho, hoc⟩]
      have hw : ∀ n, Writes n o ↔ Names n o := by
        intro n
        unfold Writes
        simp [hoc]
      simp only [hw, hoc, false_and, and_false, or_false]

section
variable {K : Type} (cd : CharData) (float : Str → Option K)

theorem Says.run {argv : List Str} {l : List (Opt × Str)} (h : Says cd argv l) :
    ∃ toks, classify cd argv = .ok toks ∧
      ∀ st : ParseState K, consume cd float toks st = storeAll cd float l st := by
  induction h with
  | nil => exact ⟨[], rfl, fun _ => rfl⟩
  | @pair n o v rest l hn ho hv _ ih =>
    obtain ⟨toks, h1, h2⟩ := ih
    have hp1 := (parseOptional_writes cd n o false none ho).2 (.inl ⟨rfl, .inl ⟨rfl, hn⟩⟩)
    have hp2 := (parseOptional_none_iff cd v).2 hv
    have hv2 : v ≠ "--".toList := fun h => not_plain_dashes cd (h ▸ hv)
    refine ⟨.opt ⟨some o, false, none⟩ :: .arg v :: toks, ?_, ?_⟩
    · simp only [classify, if_neg hn.ne_dashes, if_neg hv2, hp1, hp2, h1]
    · intro st
      rw [consume_pair cd float ho]
      simp only [storeAll, h2]
  | @glued n o v rest l hn ho _ ih =>
    obtain ⟨toks, h1, h2⟩ := ih
    have hp1 := (parseOptional_writes cd (n ++ '=' :: v) o false (some v) ho).2
      (.inl ⟨rfl, .inr ⟨n, v, rfl, hn, rfl⟩⟩)
    refine ⟨.opt ⟨some o, false, some v⟩ :: toks, ?_, ?_⟩
    · simp only [classify, if_neg hn.glued_ne_dashes, hp1, h1]
    · intro st
      rw [consume_glued cd float ho]
      simp only [storeAll, h2]
  | @short v rest l hv1 hv2 _ ih =>
    obtain ⟨toks, h1, h2⟩ := ih
    have hp1 := (parseOptional_writes cd ("-c".toList ++ v) .config true (some v) (by decide)).2
      (.inr ⟨rfl, rfl, v, rfl, rfl, hv1, hv2⟩)
    have hne : "-c".toList ++ v ≠ "--".toList := by simp
    refine ⟨.opt ⟨some .config, true, some v⟩ :: toks, ?_, ?_⟩
    · simp only [classify, if_neg hne, hp1, h1]
    · intro st
      rw [consume_glued cd float (by decide)]
      simp only [storeAll, h2]

/-- A command line that is consumed without remainder. -/
theorem says_of_consume (argv : List Str) (toks : List ArgTok) (st st' : ParseState K)
    (hc : classify cd argv = .ok toks) (h : consume cd float toks st = .ok st')
    (he : st'.extras = st.extras) : ∃ l, Says cd argv l := by
  induction hn : argv.length using Nat.strong_induction_on generalizing argv toks st with
  | _ n ih =>
  have hcontra : ∀ r : List ArgTok,
      consume cd float r { st with extras := st.extras + 1 } ≠ .ok st' := by
    intro r hr
    have := consume_mono cd float _ _ _ hr
    simp only at this
    omega
  match argv with
  | [] => exact ⟨[], .nil⟩
  | s :: rest =>
    rcases classify_cons cd hc with ⟨-, rfl⟩ | ⟨hs, toks', hc', ⟨hp, rfl⟩ | ⟨t, hp, rfl⟩⟩
    · exact absurd h (hcontra _)
    · exact absurd h (hcontra _)
    · obtain ⟨o?, sh, x⟩ := t
      cases o? with
      | none => exact absurd h (hcontra _)
      | some o =>
      by_cases ho : o = .help
      · subst ho; cases x <;> cases h
      cases x with
      | some v =>
        rw [consume_glued cd float ho] at h
        cases ht : takeAction cd float o v st with
        | error e => rw [ht] at h; cases h
        | ok st2 =>
          rw [ht] at h
          obtain ⟨l, hl⟩ := ih rest.length (by simp [← hn]) rest toks' st2 hc' h
            (by rw [he, takeAction_extras cd float ht]) rfl
          rcases (parseOptional_writes cd s o sh _ ho).1 hp with
            ⟨-, hx | ⟨n, v', hv, hnm, rfl⟩⟩ | ⟨-, rfl, v', hv, rfl, h1, h2⟩
          · cases hx.1
          · cases hv
            exact ⟨_, .glued hnm ho hl⟩
          · cases hv
            exact ⟨_, .short h1 h2 hl⟩
      | none =>
        obtain ⟨v, r', hr⟩ := consume_missing cd float sh toks' st st' h
        subst hr
        match rest, hc', hn with
        | [], hc', _ => cases hc'
        | s2 :: rest, hc', hn =>
        rcases classify_cons cd hc' with ⟨-, h2⟩ | ⟨hs2, toks2, hc2, ⟨hp2, h2⟩ | ⟨t, -, h2⟩⟩
        · cases h2
        · cases h2
          rw [consume_pair cd float ho] at h
          cases ht : takeAction cd float o v st with
          | error e => rw [ht] at h; cases h
          | ok st2 =>
            rw [ht] at h
            obtain ⟨l, hl⟩ := ih rest.length (by simp [← hn]; omega) rest r' st2 hc2 h
              (by rw [he, takeAction_extras cd float ht]) rfl
            rcases (parseOptional_writes cd s o sh _ ho).1 hp with
              ⟨-, ⟨-, hx⟩ | ⟨n, v', hv, -⟩⟩ | ⟨-, -, v', hv, -⟩
            · exact ⟨_, .pair hx ho ((parseOptional_none_iff cd _).1 hp2) hl⟩
            · cases hv
            · cases hv
        · cases h2

/-- `argparse` accepts exactly the command lines described by `Says` and `Denotes`. -/
theorem parseMain_iff (hl : cd.Lawful) (argv : List Str) (ns : Namespace K) :
    parseMain cd float argv = .ok ns ↔ ∃ l, Says cd argv l ∧ Denotes cd float l ns := by
  constructor
  · intro h
    unfold parseMain at h
    cases hc : classify cd argv with
    | error e => rw [hc] at h; cases h
    | ok toks =>
      simp only [hc] at h
      cases hcons : consume cd float toks ⟨Namespace.defaults K, [], 0⟩ with
      | error e => simp only [hcons] at h; cases h
      | ok st =>
        rw [hcons] at h
        simp only at h
        split_ifs at h with hreq hext
        cases h
        obtain ⟨l, hr⟩ := says_of_consume cd float argv toks _ st hc hcons (by simpa using hext)
        obtain ⟨toks', hc', hrun⟩ := hr.run cd float
        rw [hc] at hc'
        cases hc'
        rw [hrun] at hcons
        have hv := storeAll_valid cd float l _ _ hcons
        obtain ⟨st', e1, -, e3, e4, e5⟩ := storeAll_ok cd float l hv ⟨Namespace.defaults K, [], 0⟩
        rw [hcons] at e1
        cases e1
        refine ⟨l, hr, ?_, ?_, ?_, ?_⟩
        · intro p hp
          obtain ⟨x, hx⟩ := hv p hp
          exact ⟨x, (convert_iff cd float hl _ _ _).1 hx⟩
        · intro o ho
          by_contra hne
          apply hreq
          refine (required_iff st.seen).2 ⟨o, ho, fun hm => ?_⟩
          rcases (e3 o).1 hm with hm | hm
          · simp at hm
          · exact hne hm
        · intro l₁ o v l₂ hl' hlast
          obtain ⟨x, hx, hcv⟩ := e5 l₁ o v l₂ hl' hlast
          exact ⟨x, hx, (convert_iff cd float hl _ _ _).1 hcv⟩
        · intro o ho
          exact (unset_defaults o _).2 (e4 o ho)
  · rintro ⟨l, hr, hd⟩
    obtain ⟨toks, hc, hrun⟩ := hr.run cd float
    have hv : ∀ p ∈ l, ∃ x, convert cd float p.1 p.2 = .ok x := by
      intro p hp
      obtain ⟨x, hx⟩ := hd.valid p hp
      exact ⟨x, (convert_iff cd float hl _ _ _).2 hx⟩
    obtain ⟨st', e1, e2, e3, e4, e5⟩ := storeAll_ok cd float l hv ⟨Namespace.defaults K, [], 0⟩
    have hreq : ¬ allOptions.any (fun o => o.required && !st'.seen.contains o) = true := by
      rw [required_iff]
      rintro ⟨o, ho, hs⟩
      exact hs ((e3 o).2 (.inr (hd.mandatory o ho)))
    have hns : st'.ns = ns := by
      funext o
      by_cases ho : ∃ v, (o, v) ∈ l
      · obtain ⟨l₁, v, l₂, hl', hlast⟩ := last_occurrence l o ho
        obtain ⟨x, hx, hcv⟩ := e5 l₁ o v l₂ hl' hlast
        obtain ⟨y, hy, hval⟩ := hd.given l₁ o v l₂ hl' hlast
        rw [hx, hy]
        have := (convert_iff cd float hl o v y).2 hval
        rw [hcv] at this
        cases this
        rfl
      · have ho' : ∀ v, (o, v) ∉ l := fun v hv => ho ⟨v, hv⟩
        rw [e4 o ho']
        exact ((unset_defaults o _).1 (hd.unset o ho')).symm
    unfold parseMain
    simp only [hc, hrun, e1]
    rw [if_neg hreq, if_neg (by simpa using e2), hns]

theorem Says.append {argv argv' : List Str} {l l' : List (Opt × Str)} (h : Says cd argv l)
    (h' : Says cd argv' l') : Says cd (argv ++ argv') (l ++ l') := by
  induction h with
  | nil => exact h'
  | pair hn ho hv _ ih => exact .pair hn ho hv ih
  | glued hn ho _ ih => exact .glued hn ho ih
  | short h1 h2 _ ih => exact .short h1 h2 ih

/-- What a single argument of a described command line is. -/
theorem Says.parse {argv : List Str} {l : List (Opt × Str)} (h : Says cd argv l) {s : Str}
    (hs : s ∈ argv) : s ≠ "--".toList ∧ (parseOptional cd s = .ok none ∨
      ∃ o : Opt, o ≠ .help ∧ ∃ sh x, parseOptional cd s = .ok (some ⟨some o, sh, x⟩)) := by
  induction h with
  | nil => simp at hs
  | @pair n o v rest l hn ho hv _ ih =>
    simp only [List.mem_cons] at hs
    rcases hs with rfl | rfl | hs
    · exact ⟨hn.ne_dashes, .inr ⟨o, ho, false, none,
        (parseOptional_writes cd s o _ _ ho).2 (.inl ⟨rfl, .inl ⟨rfl, hn⟩⟩)⟩⟩
    · exact ⟨fun h => not_plain_dashes cd (h ▸ hv), .inl ((parseOptional_none_iff cd s).2 hv)⟩
    · exact ih hs
  | @glued n o v rest l hn ho _ ih =>
    simp only [List.mem_cons] at hs
    rcases hs with rfl | hs
    · exact ⟨hn.glued_ne_dashes, .inr ⟨o, ho, false, some v,
        (parseOptional_writes cd _ o _ _ ho).2 (.inl ⟨rfl, .inr ⟨n, v, rfl, hn, rfl⟩⟩)⟩⟩
    · exact ih hs
  | @short v rest l h1 h2 _ ih =>
    simp only [List.mem_cons] at hs
    rcases hs with rfl | hs
    · exact ⟨by simp, .inr ⟨.config, by decide, true, some v,
        (parseOptional_writes cd _ .config _ _ (by decide)).2
          (.inr ⟨rfl, rfl, v, rfl, rfl, h1, h2⟩)⟩⟩
    · exact ih hs

theorem Says.no_help {argv : List Str} {l : List (Opt × Str)} (h : Says cd argv l) :
    (argv.contains "-h".toList || argv.contains "--help".toList) = false := by
  have key : ∀ s, parseOptional cd s = .ok (some ⟨some .help, false, none⟩) →
      argv.contains s = false := by
    intro s hs
    rw [List.contains_eq_mem, decide_eq_false_iff_not]
    intro hm
    rcases (h.parse cd hm).2 with h1 | ⟨o, ho, sh, x, h1⟩
    · rw [hs] at h1; cases h1
    · rw [hs] at h1
      cases h1
      exact ho rfl
  rw [key _ (parseOptional_h cd), key _ (parseOptional_help cd)]
  rfl

end

/-! ## The search for the file -/

theorem pathTok_dashes (cd : CharData) (q : Str) :
    pathTok cd ('-' :: '-' :: q) =
      if (partitionEq ('-' :: '-' :: q)).1 <+: Opt.name .config then
        (match (partitionEq ('-' :: '-' :: q)).2 with
          | none => .want
          | some x => .path x)
      else if negativeNumber cd ('-' :: '-' :: q) then .arg
      else if ' ' ∈ '-' :: '-' :: q then .arg else .other := by
  have hpre : pathTokByPrefix cd ('-' :: '-' :: q) =
      if (partitionEq ('-' :: '-' :: q)).1 <+: Opt.name .config then
        (match (partitionEq ('-' :: '-' :: q)).2 with
          | none => .want
          | some x => .path x)
      else if negativeNumber cd ('-' :: '-' :: q) then .arg
      else if ' ' ∈ '-' :: '-' :: q then .arg else .other := by
    by_cases hp : (partitionEq ('-' :: '-' :: q)).1 <+: Opt.name .config
    · have h2 : (partitionEq ('-' :: '-' :: q)).1.isPrefixOf "--config".toList = true :=
        List.isPrefixOf_iff_prefix.2 hp
      rw [if_pos hp]
      unfold pathTokByPrefix
      exact if_pos h2
    · have h2 : ¬ (partitionEq ('-' :: '-' :: q)).1.isPrefixOf "--config".toList = true :=
        fun h => hp (List.isPrefixOf_iff_prefix.1 h)
      rw [if_neg hp]
      unfold pathTokByPrefix
      exact if_neg h2
  have hne : '-' :: '-' :: q ≠ "-c".toList := by simp
  unfold pathTok
  simp only [ne_eq, not_true_eq_false, if_false, reduceCtorEq]
  by_cases h1 : '-' :: '-' :: q = "--config".toList
  · rw [if_pos (.inr h1), h1, if_pos (by decide +kernel)]
    rfl
  · rw [if_neg (fun h => h.elim hne h1)]
    cases hx : (partitionEq ('-' :: '-' :: q)).2 with
    | none =>
      simp only [hpre, hx]
    | some x =>
      simp only [hpre, hx]
      by_cases h2 : (partitionEq ('-' :: '-' :: q)).1 = "-c".toList ∨
          (partitionEq ('-' :: '-' :: q)).1 = "--config".toList
      · rw [if_pos h2]
        rcases h2 with h2 | h2
        · rw [partitionEq_dashes] at h2
          simp at h2
        · rw [if_pos]
          rw [h2]
          exact List.prefix_refl _
      · rw [if_neg h2]

theorem pathTok_writes (cd : CharData) {n : Str} (h : Writes n .config) :
    pathTok cd n = .want := by
  rcases h with h | ⟨rfl, -⟩
  · obtain ⟨q, rfl⟩ := h.1
    have h1 := partitionEq_no _ h.no_eq
    have h2 := h.prefix
    simp only [String.reduceToList, List.cons_append, List.nil_append] at h1 h2 ⊢
    rw [pathTok_dashes, h1]
    simp only [if_pos h2]
  · simp [pathTok]

theorem pathTok_writes_glued (cd : CharData) {n : Str} (v : Str) (h : Writes n .config) :
    pathTok cd (n ++ '=' :: v) = .path v := by
  have h1 := partitionEq_at n v h.no_eq
  rcases h with h | ⟨rfl, -⟩
  · obtain ⟨q, rfl⟩ := h.1
    have h2 := h.prefix
    simp only [String.reduceToList, List.cons_append, List.nil_append] at h1 h2 ⊢
    rw [pathTok_dashes, h1]
    simp only [if_pos h2]
  · simp only [String.reduceToList, List.cons_append, List.nil_append] at h1 ⊢
    simp [pathTok, h1]

theorem pathTok_short (cd : CharData) {v : Str} (h : v ≠ []) (h' : v.head? ≠ some '=') :
    pathTok cd ("-c".toList ++ v) = .path v := by
  match v, h with
  | c :: r, _ =>
    have hc : c ≠ '=' := by simpa using h'
    have h1 : (partitionEq ('-' :: 'c' :: c :: r)).1 = '-' :: 'c' :: c :: (partitionEq r).1 := by
      simp [partitionEq, hc]
    have hpre : pathTokByPrefix cd ('-' :: 'c' :: c :: r) = .path (c :: r) := by
      simp [pathTokByPrefix]
    simp only [String.reduceToList, List.cons_append, List.nil_append]
    unfold pathTok
    have hn : ∀ t : Str, ¬ ('-' :: 'c' :: c :: t = "-c".toList ∨
        '-' :: 'c' :: c :: t = "--config".toList) := by
      intro t
      simp
    simp only [ne_eq, not_true_eq_false, if_false, reduceCtorEq, h1, hpre, if_neg (hn _)]
    cases (partitionEq ('-' :: 'c' :: c :: r)).2 <;> rfl

theorem pathTok_other (cd : CharData) {n : Str} {o : Opt} (h : Names n o) (ho : o ≠ .config) :
    pathTok cd n = .arg ∨ pathTok cd n = .other := by
  obtain ⟨q, rfl⟩ := h.1
  have h1 := partitionEq_no _ h.no_eq
  have h2 := fun hp => ho ((h.2 .config).1 hp).symm
  simp only [String.reduceToList, List.cons_append, List.nil_append] at h1 h2 ⊢
  rw [pathTok_dashes, h1, if_neg h2]
  split_ifs <;> simp

theorem pathTok_other_glued (cd : CharData) {n : Str} {o : Opt} (v : Str) (h : Names n o)
    (ho : o ≠ .config) :
    pathTok cd (n ++ '=' :: v) = .arg ∨ pathTok cd (n ++ '=' :: v) = .other := by
  have h1 := partitionEq_at n v h.no_eq
  obtain ⟨q, rfl⟩ := h.1
  have h2 := fun hp => ho ((h.2 .config).1 hp).symm
  simp only [String.reduceToList, List.cons_append, List.nil_append] at h1 h2 ⊢
  rw [pathTok_dashes, h1, if_neg h2]
  split_ifs <;> simp

theorem pathTok_plain (cd : CharData) {v : Str} (h : Plain cd v) : pathTok cd v = .arg := by
  rcases h with h | rfl | ⟨h, h'⟩
  · match v with
    | [] => rfl
    | c :: r =>
      have : c ≠ '-' := by rintro rfl; exact h ⟨r, rfl⟩
      simp [pathTok, this]
  · simp [pathTok]
  · rw [← or_assoc, ← negativeNumber_iff] at h'
    match v with
    | [] => rfl
    | [c] =>
      by_cases hc : c = '-'
      · subst hc; simp [pathTok]
      · simp [pathTok, hc]
    | c :: d :: r =>
      by_cases hc : c = '-'
      · subst hc
        by_cases hd : d = '-'
        · subst hd
          have h2 : ¬ (partitionEq ('-' :: '-' :: r)).1 <+: Opt.name .config := by
            intro hp
            apply h
            refine .inr (.inr ⟨_, .config, ?_, hp, ?_⟩)
            · rw [partitionEq_dashes]; exact ⟨_, rfl⟩
            · cases hx : (partitionEq ('-' :: '-' :: r)).2 with
              | none => exact .inl (partitionEq_none _ hx).symm
              | some x => exact .inr ⟨x, (partitionEq_some _ x hx).1⟩
          rw [pathTok_dashes, if_neg h2]
          rcases h' with h' | h'
          · rw [if_pos h']
          · rw [if_pos h', ite_self]
        · have hdc : d ≠ 'c' := by
            rintro rfl
            exact h (.inr (.inl ⟨r, rfl⟩))
          have hpre : pathTokByPrefix cd ('-' :: d :: r) = .arg := by
            have hrest : (if negativeNumber cd ('-' :: d :: r) then PathTok.arg
                else if ' ' ∈ '-' :: d :: r then .arg else .other) = .arg := by
              rcases h' with h' | h'
              · rw [if_pos h']
              · rw [if_pos h', ite_self]
            unfold pathTokByPrefix
            simp only [hrest]
            split
            · rename_i heq
              simp at heq
              exact absurd heq.1 hd
            · rw [if_neg (by simp [hdc])]
          have hn : ∀ t : Str, ¬ ('-' :: d :: t = "-c".toList ∨ '-' :: d :: t = "--config".toList) := by
            intro t
            simp [hd, hdc]
          have hm : ¬ ((partitionEq ('-' :: d :: r)).1 = "-c".toList ∨
              (partitionEq ('-' :: d :: r)).1 = "--config".toList) := by
            by_cases he : d = '='
            · subst he; simp [partitionEq]
            · have : (partitionEq ('-' :: d :: r)).1 = '-' :: d :: (partitionEq r).1 := by
                simp [partitionEq, he]
              rw [this]
              exact hn _
          unfold pathTok
          simp only [ne_eq, not_true_eq_false, if_false, reduceCtorEq, if_neg (hn r), if_neg hm,
            hpre]
          cases (partitionEq ('-' :: d :: r)).2 <;> rfl
      · simp [pathTok, hc]

theorem LastValue.unique {l : List (Opt × Str)} {o : Opt} {v v' : Str} (h : LastValue l o v)
    (h' : LastValue l o v') : v = v' := by
  obtain ⟨a, b, rfl, hb⟩ := h
  obtain ⟨a', b', he, hb'⟩ := h'
  rcases List.append_eq_append_iff.1 he with ⟨c, rfl, hc⟩ | ⟨c, rfl, hc⟩
  · cases c with
    | nil => simp at hc; exact hc.1
    | cons x c =>
      simp only [List.cons_append, List.cons.injEq] at hc
      exact absurd (by rw [hc.2]; simp) (hb v')
  · cases c with
    | nil => simp at hc; exact hc.1.symm
    | cons x c =>
      simp only [List.cons_append, List.cons.injEq] at hc
      exact absurd (by rw [hc.2]; simp) (hb' v)

theorem lastValue_cons_of {l : List (Opt × Str)} {o : Opt} {v : Str} (p : Opt × Str)
    (h : LastValue l o v) : LastValue (p :: l) o v := by
  obtain ⟨a, b, rfl, hb⟩ := h
  exact ⟨p :: a, b, rfl, hb⟩

/-- The value of `-c` in the options, or the value so far. -/
def PathIs (l : List (Opt × Str)) (cur res : Option Str) : Prop :=
  (∃ v, res = some v ∧ LastValue l .config v) ∨ (res = cur ∧ ∀ v, (.config, v) ∉ l)

theorem PathIs.set {l : List (Opt × Str)} {v : Str} {res : Option Str}
    (h : PathIs l (some v) res) (cur : Option Str) : PathIs ((.config, v) :: l) cur res := by
  rcases h with ⟨w, h1, h2⟩ | ⟨h1, h2⟩
  · exact .inl ⟨w, h1, lastValue_cons_of _ h2⟩
  · exact .inl ⟨v, h1, [], l, rfl, h2⟩

theorem PathIs.skip {l : List (Opt × Str)} {cur res : Option Str} (h : PathIs l cur res) {o : Opt}
    (ho : o ≠ .config) (v : Str) : PathIs ((o, v) :: l) cur res := by
  rcases h with ⟨w, h1, h2⟩ | ⟨h1, h2⟩
  · exact .inl ⟨w, h1, lastValue_cons_of _ h2⟩
  · refine .inr ⟨h1, fun w hw => ?_⟩
    rcases List.mem_cons.1 hw with hw | hw
    · cases hw; exact ho rfl
    · exact h2 w hw

/-- The search finds the last value of `-c`. -/
theorem Says.configPath {cd : CharData} {argv : List Str} {l : List (Opt × Str)}
    (h : Says cd argv l) (cur : Option Str) : PathIs l cur (Verif.configPath cd cur false argv) := by
  induction h generalizing cur with
  | nil => exact .inr ⟨rfl, by simp⟩
  | @pair n o v rest l hn ho hv _ ih =>
    have hv1 : v ≠ "--".toList := fun h => not_plain_dashes cd (h ▸ hv)
    have hv2 := pathTok_plain cd hv
    by_cases hoc : o = .config
    · subst hoc
      simp only [Verif.configPath, if_neg hn.ne_dashes, pathTok_writes cd hn, if_neg hv1, hv2]
      exact (ih _).set cur
    · have hnm : Names n o := hn.resolve_right fun h => hoc h.2
      have e : Verif.configPath cd cur false (n :: v :: rest) =
          Verif.configPath cd cur false rest := by
        rcases pathTok_other cd hnm hoc with h | h <;>
          simp only [Verif.configPath, if_neg hn.ne_dashes, if_neg hv1, hv2, h]
      rw [e]
      exact (ih cur).skip hoc v
  | @glued n o v rest l hn ho _ ih =>
    by_cases hoc : o = .config
    · subst hoc
      simp only [Verif.configPath, if_neg hn.glued_ne_dashes, pathTok_writes_glued cd v hn]
      exact (ih _).set cur
    · have hnm : Names n o := hn.resolve_right fun h => hoc h.2
      have e : Verif.configPath cd cur false ((n ++ '=' :: v) :: rest) =
          Verif.configPath cd cur false rest := by
        rcases pathTok_other_glued cd v hnm hoc with h | h <;>
          simp only [Verif.configPath, if_neg hn.glued_ne_dashes, h]
      rw [e]
      exact (ih cur).skip hoc v
  | @short v rest l h1 h2 _ ih =>
    have hd : ("-c".toList ++ v) ≠ "--".toList := by simp
    simp only [Verif.configPath, if_neg hd, pathTok_short cd h1 h2]
    exact (ih _).set cur

end Verif
