import Verif.Spec.IntLiteral
import Mathlib.Algebra.BigOperators.Group.List.Basic
import Mathlib.Data.List.Basic
import Mathlib.Tactic.Ring

/-!
# The integer scanner and the comma splitter meet their specifications
-/

namespace Verif

theorem foldl_digits (ds : List ℕ) (a : ℕ) :
    ds.foldl (fun a d => 10 * a + d) a = a * 10 ^ ds.length + decimal ds := by
  induction ds generalizing a with
  | nil => simp [decimal]
  | cons d ds ih =>
    have : decimal (d :: ds) = d * 10 ^ ds.length + decimal ds := by
      simp only [decimal, List.length_cons, List.range_succ_eq_map, List.map_cons, List.map_map,
        List.sum_cons, List.getD_cons_zero, Function.comp_def]
      congr 1
      congr 1
      refine List.map_congr_left fun i _ => ?_
      simp only [List.getD_cons_succ]
      congr 2
      omega
    rw [List.foldl_cons, ih, this, List.length_cons, pow_succ]
    ring

theorem digitsValue_eq (ds : List ℕ) : digitsValue ds = decimal ds := by
  simp [digitsValue, foldl_digits]

theorem DigitBody.ne_nil {cd : CharData} {s : List Char} {ds : List ℕ} (h : DigitBody cd s ds) :
    ∃ c v t, s = c :: t ∧ cd.digit c = some v := by
  cases h with
  | one h => exact ⟨_, _, _, rfl, h⟩
  | cons h _ => exact ⟨_, _, _, rfl, h⟩
  | underscore h _ => exact ⟨_, _, _, rfl, h⟩

theorem scanDigits_sound (cd : CharData) (s : List Char) :
    (∀ ds rest, scanDigits cd true s = some (ds, rest) →
      ∃ body, s = body ++ rest ∧ DigitBody cd body ds) ∧
    (∀ ds rest, scanDigits cd false s = some (ds, rest) →
      (ds = [] ∧ rest = s) ∨ (∃ body, s = body ++ rest ∧ DigitBody cd body ds) ∨
      ∃ body, s = '_' :: (body ++ rest) ∧ DigitBody cd body ds) := by
  induction s with
  | nil =>
    constructor
    · intro ds rest h; simp [scanDigits] at h
    · intro ds rest h
      simp [scanDigits] at h
      exact .inl ⟨h.1.symm ▸ rfl, h.2.symm ▸ rfl⟩
  | cons c cs ih =>
    -- a digit is followed by one of the three continuations
    have hdig : ∀ v ds rest, cd.digit c = some v → scanDigits cd false cs = some (ds, rest) →
        ∃ body, c :: cs = body ++ rest ∧ DigitBody cd body (v :: ds) := by
      intro v ds rest hv h
      rcases ih.2 ds rest h with ⟨rfl, rfl⟩ | ⟨b, hb, hB⟩ | ⟨b, hb, hB⟩
      · exact ⟨[c], by simp, .one hv⟩
      · exact ⟨c :: b, by simp [hb], .cons hv hB⟩
      · exact ⟨c :: '_' :: b, by simp [hb], .underscore hv hB⟩
    constructor
    · intro ds rest h
      unfold scanDigits at h
      cases hd : cd.digit c with
      | some v =>
        rw [hd] at h
        cases hs : scanDigits cd false cs with
        | none => rw [hs] at h; simp at h
        | some p =>
          obtain ⟨ds', rest'⟩ := p
          rw [hs] at h
          simp only [Option.some.injEq, Prod.mk.injEq] at h
          obtain ⟨rfl, rfl⟩ := h
          exact hdig v ds' rest' hd hs
      | none =>
        rw [hd] at h
        simp at h
    · intro ds rest h
      unfold scanDigits at h
      cases hd : cd.digit c with
      | some v =>
        rw [hd] at h
        cases hs : scanDigits cd false cs with
        | none => rw [hs] at h; simp at h
        | some p =>
          obtain ⟨ds', rest'⟩ := p
          rw [hs] at h
          simp only [Option.some.injEq, Prod.mk.injEq] at h
          obtain ⟨rfl, rfl⟩ := h
          exact .inr (.inl (hdig v ds' rest' hd hs))
      | none =>
        rw [hd] at h
        by_cases hc : c = '_'
        · subst hc
          simp only [if_true] at h
          obtain ⟨b, hb, hB⟩ := ih.1 ds rest h
          exact .inr (.inr ⟨b, by rw [hb], hB⟩)
        · simp [hc] at h
          exact .inl ⟨h.1.symm ▸ rfl, h.2.symm ▸ rfl⟩

theorem scanDigits_complete (cd : CharData) (hl : cd.Lawful) {body post : List Char}
    {ds : List ℕ} (h : DigitBody cd body ds) (hp : ∀ c ∈ post, cd.isSpace c = true)
    (prev : Bool) : scanDigits cd prev (body ++ post) = some (ds, post) := by
  induction h generalizing prev with
  | @one c v hv =>
    have : scanDigits cd false post = some ([], post) := by
      cases post with
      | nil => rfl
      | cons x xs =>
        have hx := hp x (by simp)
        have h1 := hl.space_not_digit x hx
        have h2 : x ≠ '_' := by
          rintro rfl
          rw [hl.underscore.2] at hx
          simp at hx
        simp [scanDigits, h1, h2]
    simp [scanDigits, hv, this]
  | @cons c v s ds hv hs ih =>
    simp [scanDigits, hv, ih]
  | @underscore c v s ds hv hs ih =>
    simp [scanDigits, hv, hl.underscore.1, ih]

theorem dropWhile_append_of_head {p : Char → Bool} {pre t : List Char}
    (hpre : ∀ c ∈ pre, p c = true) {c : Char} {cs : List Char} (ht : t = c :: cs)
    (hc : p c = false) : (pre ++ t).dropWhile p = t := by
  induction pre with
  | nil => subst ht; simp [hc]
  | cons a as ih =>
    have ha := hpre a (by simp)
    simp only [List.cons_append, List.dropWhile_cons, ha, if_true]
    exact ih fun c hc => hpre c (by simp [hc])

theorem takeSign_cases (s : List Char) :
    ∃ sign σ, SignOf sign σ ∧ s = sign ++ (takeSign s).2 ∧
      ∀ x : ℤ, (if (takeSign s).1 = true then -x else x) = σ * x := by
  unfold takeSign
  split
  · exact ⟨['+'], 1, .plus, rfl, by simp⟩
  · exact ⟨['-'], -1, .minus, rfl, by simp⟩
  · exact ⟨[], 1, .none, rfl, by simp⟩

theorem pyInt_unfold (cd : CharData) (s : List Char) :
    pyInt cd s =
      match scanDigits cd true (takeSign (s.dropWhile cd.isSpace)).2 with
      | none => .error .valueError
      | some (ds, rest) =>
        if rest.all cd.isSpace then
          if ds.length ≤ cd.maxDigits then
            .ok (if (takeSign (s.dropWhile cd.isSpace)).1 then -(digitsValue ds : ℤ)
              else digitsValue ds)
          else .error .valueError
        else .error .valueError := rfl

theorem takeWhile_all {p : Char → Bool} (s : List Char) : ∀ c ∈ s.takeWhile p, p c = true := by
  induction s with
  | nil => simp
  | cons a as ih =>
    intro c hc
    by_cases ha : p a = true
    · simp only [List.takeWhile_cons, ha, if_true, List.mem_cons] at hc
      rcases hc with rfl | hc
      · exact ha
      · exact ih c hc
    · simp [ha] at hc

/-- `int(s)` returns `v` exactly when `s` is a literal of value `v`. -/
theorem pyInt_iff (cd : CharData) (hl : cd.Lawful) (s : List Char) (v : ℤ) :
    pyInt cd s = .ok v ↔ IntLiteral cd s v := by
  rw [pyInt_unfold]
  constructor
  · intro h
    obtain ⟨sign, σ, hs, hsplit, hsig⟩ := takeSign_cases (s.dropWhile cd.isSpace)
    cases hscan : scanDigits cd true (takeSign (s.dropWhile cd.isSpace)).2 with
    | none => rw [hscan] at h; simp at h
    | some p =>
      obtain ⟨ds, rest⟩ := p
      rw [hscan] at h
      by_cases hr : rest.all cd.isSpace = true
      · by_cases hm : ds.length ≤ cd.maxDigits
        · simp only [hr, hm, if_true, Except.ok.injEq] at h
          obtain ⟨body, hb, hB⟩ := (scanDigits_sound cd _).1 ds rest hscan
          refine ⟨s.takeWhile cd.isSpace, sign, body, rest, σ, ds, ?_, takeWhile_all s,
            by simpa using hr, hs, hB, hm, ?_⟩
          · rw [List.append_assoc, List.append_assoc, ← hb, ← hsplit,
              List.takeWhile_append_dropWhile]
          · rw [← h, hsig, digitsValue_eq]
        · simp [hr, hm] at h
      · simp [hr] at h
  · rintro ⟨pre, sign, body, post, σ, ds, rfl, hpre, hpost, hs, hB, hm, rfl⟩
    obtain ⟨c, v, t, hbt, hc⟩ := hB.ne_nil
    have hcs : cd.isSpace c = false := by
      by_contra hne
      have := hl.space_not_digit c (by simpa using hne)
      rw [this] at hc; simp at hc
    have hcp : c ≠ '+' := by
      rintro rfl; rw [hl.plus.1] at hc; simp at hc
    have hcm : c ≠ '-' := by
      rintro rfl; rw [hl.minus.1] at hc; simp at hc
    have hscan := scanDigits_complete cd hl hB hpost true
    have hall : post.all cd.isSpace = true := by simpa using hpost
    rw [List.append_assoc, List.append_assoc]
    have key : takeSign ((pre ++ (sign ++ (body ++ post))).dropWhile cd.isSpace) =
        (decide (σ = -1), body ++ post) := by
      cases hs with
      | none =>
        rw [dropWhile_append_of_head hpre (c := c) (cs := t ++ post) (by simp [hbt]) hcs]
        subst hbt
        simp [takeSign]
        split <;> simp_all
      | plus =>
        rw [dropWhile_append_of_head hpre (c := '+') (cs := body ++ post) (by simp) hl.plus.2]
        simp [takeSign]
      | minus =>
        rw [dropWhile_append_of_head hpre (c := '-') (cs := body ++ post) (by simp) hl.minus.2]
        simp [takeSign]
    rw [key]
    simp only [hscan, hall, hm, if_true]
    rw [digitsValue_eq]
    cases hs <;> simp

/-- Failure is always `ValueError`. -/
theorem pyInt_error (cd : CharData) (s : List Char) (e : PyErr) (h : pyInt cd s = .error e) :
    e = .valueError := by
  rw [pyInt_unfold] at h
  split at h
  · simpa [eq_comm] using h
  · split at h
    · split at h
      · simp at h
      · simpa [eq_comm] using h
    · simpa [eq_comm] using h

theorem splitComma_ne_nil (s : List Char) : splitComma s ≠ [] := by
  cases s with
  | nil => simp [splitComma]
  | cons c cs =>
    unfold splitComma
    split
    · simp
    · split <;> simp

theorem intersperse_cons_cons {α : Type} (sep a b : α) (l : List α) :
    (a :: b :: l).intersperse sep = a :: sep :: (b :: l).intersperse sep := by
  simp [List.intersperse]

theorem splitComma_parts (s : List Char) : CommaParts s (splitComma s) := by
  refine ⟨splitComma_ne_nil s, ?_, ?_⟩
  · induction s with
    | nil => simp [splitComma]
    | cons c cs ih =>
      unfold splitComma
      by_cases hc : c = ','
      · simpa [hc] using ih
      · simp only [hc, if_false]
        cases hs : splitComma cs with
        | nil => exact absurd hs (splitComma_ne_nil cs)
        | cons p ps =>
          rw [hs] at ih
          simp only [List.mem_cons, forall_eq_or_imp] at ih ⊢
          refine ⟨?_, ih.2⟩
          rintro (h | h)
          · exact hc h.symm
          · exact ih.1 h
  · induction s with
    | nil => simp [splitComma]
    | cons c cs ih =>
      unfold splitComma
      by_cases hc : c = ','
      · subst hc
        simp only [if_true]
        cases hs : splitComma cs with
        | nil => exact absurd hs (splitComma_ne_nil cs)
        | cons p ps =>
          rw [hs] at ih
          rw [intersperse_cons_cons, List.flatten_cons, List.flatten_cons, ih]
          rfl
      · simp only [hc, if_false]
        cases hs : splitComma cs with
        | nil => exact absurd hs (splitComma_ne_nil cs)
        | cons p ps =>
          rw [hs] at ih
          cases ps with
          | nil => simpa using ih
          | cons q qs =>
            rw [intersperse_cons_cons, List.flatten_cons] at ih ⊢
            rw [← ih]
            simp

theorem splitComma_of_no_comma {p : List Char} (h : ',' ∉ p) : splitComma p = [p] := by
  induction p with
  | nil => rfl
  | cons c cs ih =>
    simp only [List.mem_cons, not_or] at h
    simp [splitComma, Ne.symm h.1, ih h.2]

theorem splitComma_append {p : List Char} (h : ',' ∉ p) (s : List Char) :
    splitComma (p ++ ',' :: s) = p :: splitComma s := by
  induction p with
  | nil => simp [splitComma]
  | cons c cs ih =>
    simp only [List.mem_cons, not_or] at h
    simp [splitComma, Ne.symm h.1, ih h.2]

/-- The pieces are unique. -/
theorem CommaParts.eq_splitComma {s : List Char} {parts : List (List Char)}
    (h : CommaParts s parts) : parts = splitComma s := by
  obtain ⟨hne, hno, hj⟩ := h
  induction parts generalizing s with
  | nil => exact absurd rfl hne
  | cons p ps ih =>
    cases ps with
    | nil =>
      simp at hj
      subst hj
      exact (splitComma_of_no_comma (hno p (by simp))).symm
    | cons q qs =>
      rw [intersperse_cons_cons, List.flatten_cons, List.flatten_cons] at hj
      rw [← hj]
      have := ih (s := ((q :: qs).intersperse [',']).flatten) (by simp)
        (fun x hx => hno x (by simp [hx])) rfl
      exact (congrArg (p :: ·) this).trans (splitComma_append (hno p (by simp)) _).symm

theorem pyMap_pyInt (cd : CharData) (hl : cd.Lawful) (parts : List (List Char)) (vs : List ℤ) :
    pyMap (pyInt cd) parts = .ok vs ↔ List.Forall₂ (IntLiteral cd) parts vs := by
  induction parts generalizing vs with
  | nil => cases vs <;> simp [pyMap]
  | cons p ps ih =>
    constructor
    · intro h
      simp only [pyMap] at h
      cases hp : pyInt cd p with
      | error e => rw [hp] at h; simp at h
      | ok v =>
        rw [hp] at h
        cases hps : pyMap (pyInt cd) ps with
        | error e => rw [hps] at h; simp at h
        | ok ws =>
          rw [hps] at h
          simp only [Except.ok.injEq] at h
          subst h
          exact .cons ((pyInt_iff cd hl p v).1 hp) ((ih ws).1 hps)
    · intro h
      cases h with
      | cons h1 h2 =>
        simp only [pyMap, (pyInt_iff cd hl _ _).2 h1, (ih _).2 h2]

theorem pyMap_pyInt_error (cd : CharData) (parts : List (List Char)) (e : PyErr)
    (h : pyMap (pyInt cd) parts = .error e) : e = .valueError := by
  induction parts with
  | nil => simp [pyMap] at h
  | cons p ps ih =>
    simp only [pyMap] at h
    cases hp : pyInt cd p with
    | error e' =>
      rw [hp] at h
      simp only [Except.error.injEq] at h
      exact h ▸ pyInt_error cd p e' hp
    | ok v =>
      rw [hp] at h
      cases hps : pyMap (pyInt cd) ps with
      | error e' =>
        rw [hps] at h
        simp only [Except.error.injEq] at h
        exact ih (h ▸ hps)
      | ok ws => rw [hps] at h; simp at h

end Verif
