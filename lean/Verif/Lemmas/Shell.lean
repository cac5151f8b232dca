import Verif.Spec.Shell
import Verif.Props.Command

/-!
# Lemmas for C123
-/

namespace Verif

theorem bare_special {c : Char} (h : Bare c) : shellSpecial c = false := by
  unfold Bare at h
  unfold shellSpecial
  simp only [List.mem_cons, List.not_mem_nil, or_false, not_or] at h
  simp [h]

theorem bare_ne {c : Char} (h : Bare c) :
    c ≠ ' ' ∧ c ≠ '\t' ∧ c ≠ '\n' ∧ c ≠ '\\' ∧ c ≠ '"' ∧ c ≠ '\'' := by
  unfold Bare at h
  simp only [List.mem_cons, List.not_mem_nil, or_false, not_or] at h
  exact ⟨h.1, h.2.1, h.2.2.1, h.2.2.2.1, h.2.2.2.2.1, h.2.2.2.2.2.1⟩

theorem scan_bare (ws : List Str) (t : Str) (u w : Str) (h : ∀ c ∈ u, Bare c) :
    shellScan (.word w) ws (u ++ t) = shellScan (.word (w ++ u)) ws t := by
  induction u generalizing w with
  | nil => simp
  | cons c u ih =>
    have hc := h c (by simp)
    obtain ⟨h1, h2, h3, h4, h5, h6⟩ := bare_ne hc
    rw [List.cons_append, shellScan]
    simp only [h1, h2, h3, h4, h5, h6, or_self, if_false, bare_special hc, Bool.false_eq_true]
    rw [ih _ fun c hc => h c (by simp [hc]), List.append_assoc, List.singleton_append]

theorem scan_double (ws : List Str) (t : Str) (u w : Str)
    (h : ∀ c ∈ u, c ≠ '"' ∧ c ≠ '\\' ∧ c ≠ '$' ∧ c ≠ '`') :
    shellScan (.double w) ws (u ++ '"' :: t) = shellScan (.word (w ++ u)) ws t := by
  induction u generalizing w with
  | nil => simp [shellScan]
  | cons c u ih =>
    obtain ⟨h1, h2, h3, h4⟩ := h c (by simp)
    rw [List.cons_append, shellScan]
    simp only [h1, h2, h3, h4, or_self, if_false]
    rw [ih _ fun c hc => h c (by simp [hc]), List.append_assoc, List.singleton_append]

theorem scan_single (ws : List Str) (t : Str) (u w : Str) (h : '\'' ∉ u) :
    shellScan (.single w) ws (u ++ '\'' :: t) = shellScan (.word (w ++ u)) ws t := by
  induction u generalizing w with
  | nil => simp [shellScan]
  | cons c u ih =>
    have h1 : c ≠ '\'' := fun e => h (by simp [e])
    rw [List.cons_append, shellScan]
    simp only [h1, if_false]
    rw [ih _ fun hc => h (by simp [hc]), List.append_assoc, List.singleton_append]

/-- A word is read. -/
theorem Spelled.scan {w s : Str} (h : Spelled w s) (ws : List Str) (t : Str) :
    shellScan .blank ws (s ++ t) = shellScan (.word w) ws t := by
  cases h with
  | bare h0 h1 h2 =>
    obtain ⟨c, u, rfl⟩ := List.exists_cons_of_ne_nil h0
    have hc := h2 c (by simp)
    obtain ⟨g1, g2, g3, g4, g5, g6⟩ := bare_ne hc
    have g7 : c ≠ '#' := fun e => h1 (by simp [e])
    rw [List.cons_append, shellScan]
    simp only [g1, g2, g3, g4, g5, g6, g7, or_self, if_false, bare_special hc, Bool.false_eq_true]
    rw [scan_bare _ _ _ _ fun c hc => h2 c (by simp [hc]), List.singleton_append]
  | double h0 =>
    have e : shellScan .blank ws ('"' :: (w ++ '"' :: t)) =
        shellScan (.double []) ws (w ++ '"' :: t) := by simp [shellScan]
    simp only [List.cons_append, List.append_assoc, List.nil_append]
    rw [e, scan_double _ _ _ _ h0, List.nil_append]
  | single h0 =>
    have e : shellScan .blank ws ('\'' :: (w ++ '\'' :: t)) =
        shellScan (.single []) ws (w ++ '\'' :: t) := by simp [shellScan]
    simp only [List.cons_append, List.append_assoc, List.nil_append]
    rw [e, scan_single _ _ _ _ h0, List.nil_append]

theorem Space.scan {g : Str} (h : Space g) (ws : List Str) (t : Str) :
    shellScan .blank ws (g ++ t) = shellScan .blank ws t := by
  induction h with
  | nil => rfl
  | blank _ ih => rw [List.cons_append, shellScan]; simpa using ih
  | tab _ ih => rw [List.cons_append, shellScan]; simpa using ih
  | line _ ih => simp only [List.cons_append]; rw [shellScan]; simpa [shellScan] using ih

theorem Space.scan_word {g : Str} (h : Space g) (ws : List Str) (w t : Str) :
    shellScan (.word w) ws (g ++ t) =
      if ' ' ∈ g ∨ '\t' ∈ g then shellScan .blank (ws ++ [w]) t else shellScan (.word w) ws t := by
  induction h with
  | nil => simp
  | @blank s hs ih => rw [List.cons_append, shellScan]; simpa using hs.scan (ws ++ [w]) t
  | @tab s hs ih => rw [List.cons_append, shellScan]; simpa using hs.scan (ws ++ [w]) t
  | line _ ih => simp only [List.cons_append]; rw [shellScan]; simpa [shellScan] using ih

theorem Apart.scan {g : Str} (h : Apart g) (ws : List Str) (w t : Str) :
    shellScan (.word w) ws (g ++ t) = shellScan .blank (ws ++ [w]) t := by
  rw [h.1.scan_word, if_pos h.2]

/-- The words of a line are read; the last one is still open. -/
theorem Line.scan {us : List Str} {s : Str} (h : Line us s) (ws : List Str) (t : Str) :
    ∃ vs w, us = vs ++ [w] ∧
      shellScan .blank ws (s ++ t) = shellScan (.word w) (ws ++ vs) t := by
  induction h generalizing ws with
  | @last w s hw => exact ⟨[], w, rfl, by rw [hw.scan, List.append_nil]⟩
  | @more w s g us u hw hg _ ih =>
    obtain ⟨vs, v, rfl, h2⟩ := ih (ws ++ [w])
    refine ⟨w :: vs, v, rfl, ?_⟩
    rw [List.append_assoc, List.append_assoc, hw.scan, hg.scan, h2, List.append_assoc,
      List.singleton_append]

theorem scan_remark (ws : List Str) (t : Str) {r : Str} (h : '\n' ∉ r) :
    shellScan .remark ws (r ++ '\n' :: t) =
      (shellScan .blank [] t).map (shellFlush ws ++ ·) := by
  induction r with
  | nil => simp [shellScan]
  | cons c r ih =>
    have h1 : c ≠ '\n' := fun e => h (by simp [e])
    rw [List.cons_append, shellScan]
    simp only [h1, if_false]
    exact ih fun hc => h (by simp [hc])

theorem Closes.scan {e : Str} (h : Closes e) (ws : List Str) (w t : Str) :
    shellScan (.word w) ws (e ++ t) =
      (shellScan .blank [] t).map ((ws ++ [w]) :: ·) := by
  have hf : ∀ ws : List Str, shellFlush (ws ++ [w]) = [ws ++ [w]] := fun ws => by simp [shellFlush]
  cases h with
  | plain hg =>
    rw [List.append_assoc, hg.scan_word]
    split_ifs <;> simp [shellScan, hf]
  | @remark g r hg hr =>
    rw [List.append_assoc, List.append_assoc, hg.scan]
    simp only [List.cons_append]
    rw [shellScan]
    simp only [Char.reduceEq, or_self, if_false, if_true]
    rw [scan_remark _ _ hr, hf]
    rfl

/-! ## A word that belongs to no option -/

section
variable {cd : CharData}

theorem not_plain_names {v n : Str} {o : Opt} (hv : ¬ "-".toList <+: v) (hn : Writes n o) :
    v ≠ n := by
  rintro rfl
  rcases hn with ⟨⟨t, rfl⟩, -⟩ | ⟨rfl, -⟩
  · exact hv ⟨'-' :: t, rfl⟩
  · exact hv ⟨['c'], rfl⟩

/-- Behind complete options a word without a dash is no option. -/
theorem says_stray {pre post : List Str} {l L : List (Opt × Str)} {v : Str} (h : Says cd pre l)
    (hv : ¬ "-".toList <+: v) : ¬ Says cd (pre ++ v :: post) L := by
  have hshort : ∀ {n v : Str} {o : Opt}, Writes n o → v ≠ [] → n ≠ "-c".toList ++ v := by
    rintro n v o (h | ⟨rfl, -⟩) hv he
    · obtain ⟨⟨t, rfl⟩, -⟩ := h
      simp at he
    · exact hv (by simpa using he.symm)
  have hshort' : ∀ {n v w : Str} {o : Opt}, Writes n o → v.head? ≠ some '=' →
      n ++ '=' :: w ≠ "-c".toList ++ v := by
    rintro n v w o (h | ⟨rfl, -⟩) hv he
    · obtain ⟨⟨t, rfl⟩, -⟩ := h
      simp at he
    · have : '=' :: w = v := by simpa using he
      rw [← this] at hv
      exact hv rfl
  induction h generalizing L with
  | nil =>
    intro h'
    rw [List.nil_append] at h'
    generalize hs : v = s at h'
    cases h' with
    | pair hn' ho' hv' hr => exact not_plain_names hv hn' hs
    | @glued n o x rest l hn' ho' hr =>
      subst hs
      rcases hn' with ⟨⟨t, rfl⟩, -⟩ | ⟨rfl, -⟩
      · exact hv ⟨'-' :: (t ++ '=' :: x), rfl⟩
      · exact hv ⟨'c' :: '=' :: x, rfl⟩
    | @short x rest l h1 h2 hr => subst hs; exact hv ⟨'c' :: x, rfl⟩
  | @pair n o x rest l hn ho hx _ ih =>
    intro h'
    rw [List.cons_append, List.cons_append] at h'
    generalize hs : n = s at h'
    cases h' with
    | pair hn' ho' hv' hr => exact ih hr
    | glued hn' ho' hr => exact absurd (by rw [hs]; simp) hn.no_eq
    | short h1 h2 hr => exact absurd hs (hshort hn h1)
  | @glued n o x rest l hn ho _ ih =>
    intro h'
    rw [List.cons_append] at h'
    generalize hs : n ++ '=' :: x = s at h'
    generalize hq : rest ++ v :: post = q at h' ih
    cases h' with
    | pair hn' ho' hv' hr => exact absurd (by rw [← hs]; simp) hn'.no_eq
    | glued hn' ho' hr => exact ih hr
    | short h1 h2 hr => exact absurd hs (hshort' hn h2)
  | @short x rest l h1 h2 _ ih =>
    intro h'
    rw [List.cons_append] at h'
    generalize hs : "-c".toList ++ x = s at h'
    generalize hq : rest ++ v :: post = q at h' ih
    cases h' with
    | pair hn' ho' hv' hr => exact absurd hs.symm (hshort hn' h1)
    | glued hn' ho' hr => exact absurd hs.symm (hshort' hn' h2)
    | short h1' h2' hr => exact ih hr

/-- The search for a configuration file passes such a word. -/
theorem configPath_stray {pre : List Str} {l : List (Opt × Str)} {v : Str} (h : Reads cd pre l)
    (hv : ¬ "-".toList <+: v) : configPath cd none false (pre ++ [v]) = none := by
  have hvd : v ≠ "--".toList := fun e => hv ⟨['-'], by rw [e]; rfl⟩
  induction h with
  | nil =>
    have : pathTok cd v = .arg := pathTok_plain cd (.inl hv)
    simp only [List.nil_append, configPath, if_neg hvd, this]
  | @pair n o x rest l hn ho hx _ ih =>
    have hx1 : x ≠ "--".toList := fun h => not_plain_dashes cd (h ▸ hx)
    have hw : Writes n o := .inl hn
    rw [List.cons_append, List.cons_append]
    rcases pathTok_other cd hn ho.2 with h | h <;>
      simp only [configPath, if_neg hw.ne_dashes, if_neg hx1, pathTok_plain cd hx, h] <;> exact ih
  | @glued n o x rest l hn ho _ ih =>
    have hw : Writes n o := .inl hn
    rw [List.cons_append]
    rcases pathTok_other_glued cd x hn ho.2 with h | h <;>
      simp only [configPath, if_neg hw.glued_ne_dashes, h] <;> exact ih

/-- Such a command line ends with status 2. -/
theorem parseCommand_stray {K : Type} (hl : cd.Lawful) (float : Str → Option K)
    (json : Str → List Str)
    (fs : Str → Option Str) {pre : List Str} {l : List (Opt × Str)} {v : Str} (h : Reads cd pre l)
    (hv : ¬ "-".toList <+: v) : parseCommand cd float json fs (pre ++ [v]) = .error (.exit 2) := by
  have hs := (h.says cd).1
  have hhelp : ((pre ++ [v]).contains "-h".toList || (pre ++ [v]).contains "--help".toList) =
      false := by
    have h1 := hs.no_help
    rw [Bool.or_eq_false_iff] at h1 ⊢
    have g1 : "-h".toList ≠ v := fun e => hv ⟨['h'], by rw [← e]; rfl⟩
    have g2 : "--help".toList ≠ v := fun e => hv ⟨"-help".toList, by rw [← e]; rfl⟩
    rw [List.contains_eq_mem, List.contains_eq_mem, decide_eq_false_iff_not,
      decide_eq_false_iff_not] at h1 ⊢
    simp only [List.mem_append, List.mem_singleton, not_or]
    exact ⟨⟨h1.1, g1⟩, h1.2, g2⟩
  have hall : allArgs cd json fs (pre ++ [v]) = .ok (pre ++ [v]) := by
    unfold allArgs
    rw [if_neg (by rw [hhelp]; simp), configPath_stray h hv]
  unfold parseCommand
  rw [hall]
  simp only
  cases hp : parseMain cd float (pre ++ [v]) with
  | ok ns =>
    obtain ⟨L, h1, -⟩ := (parseMain_iff cd float hl _ ns).1 hp
    exact absurd h1 (says_stray hs hv)
  | error e =>
    have : e = .exit 2 := by
      unfold parseMain at hp
      cases hc : classify cd (pre ++ [v]) with
      | error e' =>
        rw [hc] at hp
        cases hp
        exact classify_error cd _ _ hc
      | ok toks =>
        simp only [hc] at hp
        cases hcons : consume cd float toks ⟨Namespace.defaults K, [], 0⟩ with
        | error e' =>
          rw [hcons] at hp
          cases hp
          rcases consume_error cd float toks _ _ hcons with h' | ⟨-, t, ht, hopt, -⟩
          · exact h'
          · exfalso
            obtain ⟨s, hs', hp'⟩ := classify_mem cd hc ht
            rcases List.mem_append.1 hs' with hs' | hs'
            · rcases h.parse cd hs' with h' | ⟨o, ho, sh, x, h'⟩
              · rw [hp'] at h'; cases h'
              · rw [hp'] at h'
                cases h'
                exact ho.1 (Option.some.inj hopt)
            · obtain rfl := List.mem_singleton.1 hs'
              rw [(parseOptional_none_iff cd s).2 (.inl hv)] at hp'
              cases hp'
        | ok st =>
          rw [hcons] at hp
          simp only at hp
          split_ifs at hp <;> cases hp <;> rfl
    rw [this]

end

end Verif
