import Verif.Model.FileUtils
import Mathlib.Data.List.Infix
import Mathlib.Data.List.Sort
import Mathlib.Tactic.Ring

/-!
# Tokenizer, glob and string order
-/

namespace Verif

/-! ## Tokenizer -/

/-- Characters of a field continue the field. -/
theorem Csv.run_inField (cs : List Char) (h : ∀ c ∈ cs, c ≠ '\n' ∧ c ≠ '\r' ∧ c ≠ ',')
    (s : Csv) (hs : s.mode = .inField) :
    cs.foldl Csv.step s =
      { s with
        mode := .inField
        field := cs.reverse ++ s.field } := by
  induction cs generalizing s with
  | nil => cases s; simp_all
  | cons c cs ih =>
    have hc := h c (by simp)
    have h1 : s.step c = ⟨.inField, c :: s.field, s.record, s.records⟩ := by
      simp [Csv.step, hs, Csv.fieldChar, hc.1, hc.2.1, hc.2.2]
    rw [List.foldl_cons, ih (fun x hx => h x (by simp [hx])) _ (by rw [h1]), h1]
    simp

/-- Leading blanks of a line are kept while more characters follow. -/
theorem Csv.run_blank (cs : List Char) (h : ∀ c ∈ cs, c ≠ '\n' ∧ c ≠ '\r' ∧ c ≠ ',')
    (hn : ∃ c ∈ cs, c ≠ ' ' ∧ c ≠ '\t')
    (s : Csv) (hs : s.mode = .blankLine) :
    cs.foldl Csv.step s =
      { s with
        mode := .inField
        field := cs.reverse ++ s.field } := by
  induction cs generalizing s with
  | nil => simp at hn
  | cons c cs ih =>
    have hc := h c (by simp)
    by_cases hb : c = ' ' ∨ c = '\t'
    · have hn' : ∃ x ∈ cs, x ≠ ' ' ∧ x ≠ '\t' := by
        obtain ⟨x, hx, hx'⟩ := hn
        rcases List.mem_cons.1 hx with rfl | hx
        · rcases hb with rfl | rfl <;> simp at hx'
        · exact ⟨x, hx, hx'⟩
      have h1 : s.step c = ⟨.blankLine, c :: s.field, s.record, s.records⟩ := by
        simp [Csv.step, hs, hc.1, hc.2.1, hb]
      rw [List.foldl_cons, ih (fun x hx => h x (by simp [hx])) hn' _ (by rw [h1]), h1]
      simp
    · have h1 : s.step c = ⟨.inField, c :: s.field, s.record, s.records⟩ := by
        simp [Csv.step, hs, hc.1, hc.2.1, hb, Csv.fieldChar, hc.2.2]
      rw [List.foldl_cons, Csv.run_inField cs (fun x hx => h x (by simp [hx])) _ (by rw [h1]), h1]
      simp

/-- A first piece of a line that the tokenizer takes literally. -/
theorem Csv.run_start (cs : List Char) (h : ∀ c ∈ cs, c ≠ '\n' ∧ c ≠ '\r' ∧ c ≠ ',')
    (hn : ∃ c ∈ cs, c ≠ ' ' ∧ c ≠ '\t') (hq : cs.head? ≠ some '"')
    (records : List (List (List Char))) :
    cs.foldl Csv.step ⟨.startRecord, [], [], records⟩ = ⟨.inField, cs.reverse, [], records⟩ := by
  cases cs with
  | nil => simp at hn
  | cons c cs =>
    have hc := h c (by simp)
    have hcs := fun x hx => h x (List.mem_cons_of_mem c hx)
    have hq' : c ≠ '"' := by simpa using hq
    by_cases hb : c = ' ' ∨ c = '\t'
    · have hn' : ∃ x ∈ cs, x ≠ ' ' ∧ x ≠ '\t' := by
        obtain ⟨x, hx, hx'⟩ := hn
        rcases List.mem_cons.1 hx with rfl | hx
        · rcases hb with rfl | rfl <;> simp at hx'
        · exact ⟨x, hx, hx'⟩
      have h1 : Csv.step ⟨.startRecord, [], [], records⟩ c = ⟨.blankLine, [c], [], records⟩ := by
        simp [Csv.step, Csv.recordChar, hc.1, hc.2.1, hb]
      rw [List.foldl_cons, h1, Csv.run_blank cs hcs hn' _ rfl]
      simp
    · have h1 : Csv.step ⟨.startRecord, [], [], records⟩ c = ⟨.inField, [c], [], records⟩ := by
        simp [Csv.step, Csv.recordChar, Csv.startChar, Csv.fieldChar, hc.1, hc.2.1, hc.2.2, hb,
          hq']
      rw [List.foldl_cons, h1, Csv.run_inField cs hcs _ rfl]
      simp

/-! ## Glob -/

theorem glob_star_end (s : List Char) : glob ['*'] s = true := by
  simp [glob]

theorem glob_literal (p : List Char) (hp : ∀ c ∈ p, c ≠ '*' ∧ c ≠ '?') (s : List Char) :
    glob (p ++ ['*']) s = true ↔ p <+: s := by
  induction p generalizing s with
  | nil => simp [glob]
  | cons c cs ih =>
    have hc := hp c (by simp)
    have hcs := fun x hx => hp x (List.mem_cons_of_mem c hx)
    cases s with
    | nil => simp [glob, hc.1]
    | cons x xs =>
      simp [glob, hc.1, hc.2, ih hcs, List.cons_prefix_cons]

theorem glob_contains (p : List Char) (hp : ∀ c ∈ p, c ≠ '*' ∧ c ≠ '?') (s : List Char) :
    glob ('*' :: (p ++ ['*'])) s = true ↔ p <:+: s := by
  simp only [glob, if_true, List.any_eq_true, List.mem_tails]
  rw [List.infix_iff_prefix_suffix]
  constructor
  · rintro ⟨t, h1, h2⟩; exact ⟨t, (glob_literal p hp t).1 h2, h1⟩
  · rintro ⟨t, h1, h2⟩; exact ⟨t, h2, (glob_literal p hp t).2 h1⟩

/-! ## Order -/

theorem strLe_refl (a : List Char) : strLe a a = true := by
  induction a with
  | nil => rfl
  | cons x xs ih => simp [strLe, ih]

theorem strLe_total (a b : List Char) : (strLe a b || strLe b a) = true := by
  induction a generalizing b with
  | nil => simp [strLe]
  | cons x xs ih =>
    cases b with
    | nil => simp [strLe]
    | cons y ys =>
      by_cases h : x = y
      · subst h; simpa [strLe] using ih ys
      · have h' : x.toNat ≠ y.toNat := fun e => h (Char.toNat_inj.1 e)
        simp [strLe, h, Ne.symm h]
        omega

theorem strLe_trans (a b c : List Char) (h1 : strLe a b = true) (h2 : strLe b c = true) :
    strLe a c = true := by
  induction a generalizing b c with
  | nil => rfl
  | cons x xs ih =>
    cases b with
    | nil => simp [strLe] at h1
    | cons y ys =>
      cases c with
      | nil => simp [strLe] at h2
      | cons z zs =>
        by_cases hxy : x = y
        · subst hxy
          by_cases hxz : x = z
          · subst hxz
            simp [strLe] at h1 h2 ⊢
            exact ih ys zs h1 h2
          · simp [strLe, hxz] at h2 ⊢
            exact h2
        · simp [strLe, hxy] at h1
          by_cases hyz : y = z
          · subst hyz
            simp [strLe, hxy]; exact h1
          · simp [strLe, hyz] at h2
            have hxz : x ≠ z := by rintro rfl; omega
            simp [strLe, hxz]
            omega

theorem strLe_antisymm (a b : List Char) (h1 : strLe a b = true) (h2 : strLe b a = true) :
    a = b := by
  induction a generalizing b with
  | nil => cases b <;> simp_all [strLe]
  | cons x xs ih =>
    cases b with
    | nil => simp [strLe] at h1
    | cons y ys =>
      by_cases h : x = y
      · subst h
        simp [strLe] at h1 h2
        rw [ih ys h1 h2]
      · simp [strLe, h, Ne.symm h] at h1 h2
        omega

theorem strLe_append_left (p a b : List Char) : strLe (p ++ a) (p ++ b) = strLe a b := by
  induction p with
  | nil => rfl
  | cons x xs ih => simp [strLe, ih]

end Verif
