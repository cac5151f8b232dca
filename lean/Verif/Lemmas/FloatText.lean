import Verif.Spec.FloatLiteral
import Verif.Lemmas.Cli
import Mathlib.Tactic.Linarith

/-!
# The scanner of floating-point literals meets its specification
-/

namespace Verif

variable {cd : CharData}

theorem nearest64_iff (q : ℚ) (x : PyFloat) : Nearest64 q x ↔ x = .ofRat q := by
  unfold PyFloat.ofRat b64
  cases x with
  | num y =>
    simp only [Nearest64]
    split
    · rename_i z hz
      split at hz
      · rename_i h
        cases hz
        constructor
        · rintro ⟨h1, -⟩
          cases y
          simp_all
        · intro h1
          cases h1
          exact ⟨rfl, h⟩
      · cases hz
    · rename_i hz
      split at hz
      · cases hz
      · rename_i h
        simp [h]
  | inf n =>
    simp only [Nearest64]
    split
    · rename_i z hz
      split at hz
      · rename_i h
        simp [not_le.2 h]
      · cases hz
    · rename_i hz
      split at hz
      · cases hz
      · rename_i h
        simp only [not_lt.1 h, true_and, PyFloat.inf.injEq]
        cases n <;> simp
  | nan =>
    simp only [Nearest64, false_iff]
    split <;> simp

theorem decimal_append (ds fs : List ℕ) :
    decimal (ds ++ fs) = decimal ds * 10 ^ fs.length + decimal fs := by
  rw [← digitsValue_eq, ← digitsValue_eq ds]
  unfold digitsValue
  rw [List.foldl_append, foldl_digits]

theorem decimal_nil : decimal [] = 0 := rfl

theorem number_value (ds fs : List ℕ) (e : ℤ) :
    (digitsValue (ds ++ fs) : ℚ) * (10 : ℚ) ^ (e - fs.length) =
      (decimal ds + decimal fs / 10 ^ fs.length) * (10 : ℚ) ^ e := by
  rw [digitsValue_eq, decimal_append, zpow_sub₀ (by norm_num), zpow_natCast]
  push_cast
  field_simp

/-- Digits end where neither a digit nor an underscore follows. -/
theorem scanDigits_upto (hu : cd.digit '_' = none) {body post : List Char} {ds : List ℕ}
    (h : DigitBody cd body ds)
    (hp : ∀ c t, post = c :: t → cd.digit c = none ∧ c ≠ '_') (prev : Bool) :
    scanDigits cd prev (body ++ post) = some (ds, post) := by
  induction h generalizing prev with
  | @one c v hv =>
    have : scanDigits cd false post = some ([], post) := by
      cases post with
      | nil => rfl
      | cons x xs =>
        obtain ⟨h1, h2⟩ := hp x xs rfl
        simp [scanDigits, h1, h2]
    simp [scanDigits, hv, this]
  | @cons c v s ds hv hs ih =>
    simp [scanDigits, hv, ih]
  | @underscore c v s ds hv hs ih =>
    simp [scanDigits, hv, hu, ih]

theorem scanPart_upto (hu : cd.digit '_' = none) {body post : List Char} {ds : List ℕ}
    (h : DigitBody cd body ds)
    (hp : ∀ c t, post = c :: t → cd.digit c = none ∧ c ≠ '_') :
    scanPart cd (body ++ post) = some (ds, post) := by
  obtain ⟨c, v, t, rfl, hc⟩ := h.ne_nil
  have := scanDigits_upto hu h hp true
  unfold scanPart
  simp only [List.cons_append, hc, Option.isSome_some, if_true]
  exact this

theorem scanPart_none {post : List Char}
    (hp : ∀ c t, post = c :: t → cd.digit c = none ∧ c ≠ '_') :
    scanPart cd post = some ([], post) := by
  unfold scanPart
  split
  · rfl
  · rename_i c t
    rw [(hp c t rfl).1]
    rfl

theorem scanPart_sound {s : List Char} {ds : List ℕ} {r : List Char}
    (h : scanPart cd s = some (ds, r)) :
    (ds = [] ∧ r = s) ∨ ∃ a, s = a ++ r ∧ DigitBody cd a ds := by
  unfold scanPart at h
  split at h
  · cases h
    exact .inl ⟨rfl, rfl⟩
  · split at h
    · exact .inr ((scanDigits_sound cd _).1 _ _ h)
    · cases h
      exact .inl ⟨rfl, rfl⟩

theorem scanExponent_sound {s : List Char} {e : ℤ} {r : List Char}
    (h : scanExponent cd s = some (e, r)) : ∃ ex, s = ex ++ r ∧ ExponentPart cd ex e := by
  unfold scanExponent at h
  split at h
  · cases h
    exact ⟨[], rfl, .none⟩
  · rename_i c t
    split at h
    · rename_i hc
      obtain ⟨sign, σ, hs, hsplit, hsig⟩ := takeSign_cases t
      split at h
      · cases h
      · rename_i ds rest hscan
        cases h
        obtain ⟨body, hb, hB⟩ := (scanDigits_sound cd _).1 _ _ hscan
        refine ⟨c :: (sign ++ body), ?_, ?_⟩
        · rw [List.cons_append, List.append_assoc, ← hb, ← hsplit]
        · rw [hsig, digitsValue_eq]
          exact .some hc hs hB
    · cases h
      exact ⟨[], rfl, .none⟩

theorem DigitBody.nonempty {s : List Char} {ds : List ℕ} (h : DigitBody cd s ds) : ds ≠ [] := by
  cases h <;> simp

theorem scanNumber_sound {s : List Char} {q : ℚ} {r : List Char}
    (h : scanNumber cd s = some (q, r)) : ∃ m ex ds fs e, s = m ++ ex ++ r ∧
      NumberPart cd m ds fs ∧ ExponentPart cd ex e ∧
      q = (decimal ds + decimal fs / 10 ^ fs.length) * (10 : ℚ) ^ e := by
  unfold scanNumber at h
  split at h
  · cases h
  · rename_i ds r₁ h1
    split at h
    · cases h
    · rename_i fs r₂ h2
      split at h
      · cases h
      · rename_i hne
        split at h
        · cases h
        · rename_i e r₃ h3
          simp only [Option.some.injEq, Prod.mk.injEq] at h
          obtain ⟨rfl, rfl⟩ := h
          obtain ⟨ex, rfl, hE⟩ := scanExponent_sound h3
          have key : ∃ m, s = m ++ (ex ++ r₃) ∧ NumberPart cd m ds fs := by
            unfold scanFraction at h2
            split at h2
            · rename_i t
              rcases scanPart_sound h1 with ⟨rfl, rfl⟩ | ⟨a, rfl, hA⟩
              · rcases scanPart_sound h2 with ⟨rfl, h2'⟩ | ⟨b, rfl, hB⟩
                · simp at hne
                · exact ⟨'.' :: b, rfl, .fraction hB⟩
              · rcases scanPart_sound h2 with ⟨rfl, h2'⟩ | ⟨b, rfl, hB⟩
                · exact ⟨a ++ ['.'], by rw [h2', List.append_assoc, List.singleton_append], .point hA⟩
                · exact ⟨a ++ '.' :: b, by simp, .both hA hB⟩
            · cases h2
              rcases scanPart_sound h1 with ⟨rfl, rfl⟩ | ⟨a, rfl, hA⟩
              · simp at hne
              · exact ⟨a, rfl, .whole hA⟩
          obtain ⟨m, hm, hM⟩ := key
          exact ⟨m, ex, ds, fs, e, by rw [hm, List.append_assoc], hM, hE, number_value ds fs e⟩

/-- What may follow a number. -/
theorem scanNumber_complete (hl : cd.Lawful) (hp : cd.PlainLetters) {m ex post : List Char}
    {ds fs : List ℕ} {e : ℤ} (hM : NumberPart cd m ds fs) (hE : ExponentPart cd ex e)
    (hpost : ∀ c ∈ post, cd.isSpace c = true) :
    scanNumber cd (m ++ ex ++ post) =
      some ((decimal ds + decimal fs / 10 ^ fs.length) * (10 : ℚ) ^ e, post) := by
  have hu := hl.underscore.1
  have hdot : cd.digit '.' = none := (hp '.' (by decide)).1
  have hpost' : ∀ c t, post = c :: t → cd.digit c = none ∧ c ≠ '_' := by
    rintro c t rfl
    have hc := hpost c (by simp)
    refine ⟨hl.space_not_digit c hc, ?_⟩
    rintro rfl
    rw [hl.underscore.2] at hc
    cases hc
  have hle : ∀ c, c = 'e' ∨ c = 'E' → cd.digit c = none ∧ c ≠ '_' ∧ c ≠ '.' := by
    rintro c (rfl | rfl)
    · exact ⟨(hp _ (by decide)).1, by decide, by decide⟩
    · exact ⟨(hp _ (by decide)).1, by decide, by decide⟩
  have hsp : ∀ c t, post = c :: t → c ≠ '.' ∧ c ≠ 'e' ∧ c ≠ 'E' := by
    rintro c t rfl
    have hc := hpost c (by simp)
    refine ⟨?_, ?_, ?_⟩ <;> rintro rfl
    · rw [(hp _ (by decide)).2] at hc; cases hc
    · rw [(hp _ (by decide)).2] at hc; cases hc
    · rw [(hp _ (by decide)).2] at hc; cases hc
  have htail : ∀ c t, ex ++ post = c :: t → cd.digit c = none ∧ c ≠ '_' := by
    intro c t h
    cases hE with
    | none => exact hpost' c t h
    | some hc _ _ =>
      simp only [List.cons_append, List.cons.injEq] at h
      obtain ⟨rfl, -⟩ := h
      exact ⟨(hle _ hc).1, (hle _ hc).2.1⟩
  have htail' : ∀ c t, ex ++ post = c :: t → c ≠ '.' := by
    intro c t h
    cases hE with
    | none => exact (hsp c t h).1
    | some hc _ _ =>
      simp only [List.cons_append, List.cons.injEq] at h
      obtain ⟨rfl, -⟩ := h
      exact (hle _ hc).2.2
  have hexp : scanExponent cd (ex ++ post) = some (e, post) := by
    cases hE with
    | none =>
      unfold scanExponent
      simp only [List.nil_append]
      split
      · rfl
      · rename_i c t
        rw [if_neg (by have := hsp c t rfl; tauto)]
    | @some c sign body σ ds hc hs hB =>
      unfold scanExponent
      simp only [List.cons_append]
      rw [if_pos hc]
      have hts : takeSign (sign ++ body ++ post) = (decide (σ = -1), body ++ post) := by
        obtain ⟨d, v, t, rfl, hd⟩ := hB.ne_nil
        have hdp : d ≠ '+' := by
          rintro rfl; rw [hl.plus.1] at hd; cases hd
        have hdm : d ≠ '-' := by
          rintro rfl; rw [hl.minus.1] at hd; cases hd
        cases hs with
        | none =>
          unfold takeSign
          simp only [List.nil_append, List.cons_append]
          split
          · simp_all
          · simp_all
          · rfl
        | plus => rfl
        | minus => rfl
      rw [hts]
      dsimp only
      rw [scanDigits_upto hu hB hpost' true]
      dsimp only
      rw [digitsValue_eq]
      cases hs <;> simp
  have hfrac : ∀ r fs', (∃ b, r = '.' :: b ++ (ex ++ post) ∧ (DigitBody cd b fs' ∨ b = [] ∧ fs' = [])) ∨
      (r = ex ++ post ∧ fs' = []) → scanFraction cd r = some (fs', ex ++ post) := by
    rintro r fs' (⟨b, rfl, hB | ⟨rfl, rfl⟩⟩ | ⟨rfl, rfl⟩)
    · exact scanPart_upto hu hB htail
    · exact scanPart_none htail
    · unfold scanFraction
      split
      · rename_i t h
        exact absurd rfl (htail' _ _ h)
      · rfl
  have hdotpost : ∀ (t : List Char), ∀ c t', '.' :: t = c :: t' → cd.digit c = none ∧ c ≠ '_' := by
    intro t c t' h
    cases h
    exact ⟨hdot, by decide⟩
  have finish : ∀ r, scanPart cd (m ++ ex ++ post) = some (ds, r) →
      scanFraction cd r = some (fs, ex ++ post) → ¬ (ds = [] ∧ fs = []) →
      scanNumber cd (m ++ ex ++ post) =
        some ((decimal ds + decimal fs / 10 ^ fs.length) * (10 : ℚ) ^ e, post) := by
    intro r h1 h2 h3
    unfold scanNumber
    rw [h1]
    dsimp only
    rw [h2]
    dsimp only
    rw [if_neg h3, hexp]
    dsimp only
    rw [number_value]
  cases hM with
  | whole hA =>
    refine finish (ex ++ post) ?_ (hfrac _ _ (.inr ⟨rfl, rfl⟩)) (fun h => hA.nonempty h.1)
    rw [List.append_assoc]
    exact scanPart_upto hu hA htail
  | point hA =>
    refine finish ('.' :: (ex ++ post)) ?_ (hfrac _ _ (.inl ⟨[], rfl, .inr ⟨rfl, rfl⟩⟩))
      (fun h => hA.nonempty h.1)
    rw [List.append_assoc, List.append_assoc]
    exact scanPart_upto hu hA (hdotpost _)
  | @fraction b fs hB =>
    refine finish ('.' :: b ++ (ex ++ post)) ?_ (hfrac _ _ (.inl ⟨b, rfl, .inl hB⟩))
      (fun h => hB.nonempty h.2)
    rw [List.append_assoc]
    exact scanPart_none (hdotpost _)
  | @both a b ds fs hA hB =>
    refine finish ('.' :: b ++ (ex ++ post)) ?_ (hfrac _ _ (.inl ⟨b, rfl, .inl hB⟩))
      (fun h => hA.nonempty h.1)
    rw [List.append_assoc, List.append_assoc]
    exact scanPart_upto hu hA (hdotpost _)

theorem lowerAscii_iff {c d : Char} (hd : d ∈ "inftya".toList) :
    lowerAscii c = d ↔ c = d ∨ c = d.toUpper := by
  have h1 : ∀ d ∈ "inftya".toList, lowerAscii d = d ∧ lowerAscii d.toUpper = d ∧
      (97 ≤ d.toNat ∧ d.toNat ≤ 122) ∧ Char.ofNat (d.toNat - 32) = d.toUpper := by decide
  obtain ⟨g1, g2, ⟨g3, g4⟩, g5⟩ := h1 d hd
  constructor
  · intro h
    unfold lowerAscii at h
    split at h
    · rename_i hc
      right
      have h90 : c.toNat ≤ 90 := by
        have := hc.2
        simp only [Char.le_def, UInt32.le_iff_toNat_le] at this
        exact this
      have : c.toNat + 32 = d.toNat := by
        have key : ∀ n, n < 123 → (Char.ofNat n).toNat = n := by decide
        rw [← h, key _ (by omega)]
      rw [← g5, show d.toNat - 32 = c.toNat by omega, Char.ofNat_toNat]
    · exact .inl h
  · rintro (rfl | rfl)
    · exact g1
    · exact g2

theorem anyCase_iff {s w : List Char} (hw : ∀ d ∈ w, d ∈ "inftya".toList) :
    AnyCase s w ↔ s.map lowerAscii = w := by
  unfold AnyCase
  induction w generalizing s with
  | nil => cases s <;> simp
  | cons d w ih =>
    cases s with
    | nil => simp
    | cons c s =>
      rw [List.forall₂_cons, ih fun x hx => hw x (by simp [hx]), List.map_cons, List.cons.injEq,
        lowerAscii_iff (hw d (by simp))]

theorem rstrip_spaces (s : List Char) : ∃ post, s = rstrip cd s ++ post ∧
    ∀ c ∈ post, cd.isSpace c = true := by
  refine ⟨(s.reverse.takeWhile cd.isSpace).reverse, ?_, ?_⟩
  · unfold rstrip
    rw [← List.reverse_append, List.takeWhile_append_dropWhile, List.reverse_reverse]
  · intro c hc
    rw [List.mem_reverse] at hc
    exact takeWhile_all _ c hc

theorem rstrip_append {body post : List Char} (hpost : ∀ c ∈ post, cd.isSpace c = true)
    (hb : ∀ c ∈ body, cd.isSpace c = false) : rstrip cd (body ++ post) = body := by
  have h1 : ∀ l : List Char, (∀ c ∈ l, cd.isSpace c = true) → ∀ r, (l ++ r).dropWhile cd.isSpace =
      r.dropWhile cd.isSpace := by
    intro l hl r
    induction l with
    | nil => rfl
    | cons a l ih =>
      simp only [List.cons_append, List.dropWhile_cons, hl a (by simp), if_true]
      exact ih fun c hc => hl c (by simp [hc])
  unfold rstrip
  rw [List.reverse_append, h1 _ (by simpa using hpost)]
  have h2 : body.reverse.dropWhile cd.isSpace = body.reverse := by
    cases hr : body.reverse with
    | nil => rfl
    | cons a l =>
      have : a ∈ body := by
        rw [← List.mem_reverse, hr]
        simp
      simp [hb a this]
  rw [h2, List.reverse_reverse]

theorem rstrip_head {c : Char} {t : List Char} (hc : cd.isSpace c = false) :
    ∃ t', rstrip cd (c :: t) = c :: t' := by
  obtain ⟨post, h, hp⟩ := rstrip_spaces (cd := cd) (c :: t)
  cases hr : rstrip cd (c :: t) with
  | nil =>
    rw [hr] at h
    have := hp c (by rw [← List.nil_append post, ← h]; simp)
    rw [hc] at this
    cases this
  | cons a l =>
    rw [hr] at h
    simp only [List.cons_append, List.cons.injEq] at h
    exact ⟨l, by rw [h.1]⟩

theorem AnyCase.plain (hp : cd.PlainLetters) {s w : List Char} (h : AnyCase s w)
    (hw : ∀ d ∈ w, d ∈ "inftya".toList) : ∀ c ∈ s, cd.isSpace c = false ∧ c ≠ '+' ∧ c ≠ '-' := by
  have key : ∀ d ∈ "inftya".toList, (d ∈ ".eEinftyaINFTYA".toList ∧
      d.toUpper ∈ ".eEinftyaINFTYA".toList) ∧ (d ≠ '+' ∧ d ≠ '-') ∧
      d.toUpper ≠ '+' ∧ d.toUpper ≠ '-' := by decide
  unfold AnyCase at h
  induction h with
  | nil => simp
  | @cons c d s w hcd _ ih =>
    intro x hx
    simp only [List.mem_cons] at hx
    rcases hx with rfl | hx
    · obtain ⟨k1, k2, k3⟩ := key d (hw d (by simp))
      rcases hcd with rfl | rfl
      · exact ⟨(hp _ k1.1).2, k2⟩
      · exact ⟨(hp _ k1.2).2, k3⟩
    · exact ih (fun d hd => hw d (by simp [hd])) x hx

/-- A number starts with a digit or a point. -/
theorem NumberPart.head {m : List Char} {ds fs : List ℕ} (h : NumberPart cd m ds fs) :
    ∃ c t, m = c :: t ∧ ((cd.digit c).isSome ∨ c = '.') := by
  cases h with
  | whole hA =>
    obtain ⟨c, v, t, rfl, hc⟩ := hA.ne_nil
    exact ⟨c, t, rfl, .inl (by simp [hc])⟩
  | point hA =>
    obtain ⟨c, v, t, rfl, hc⟩ := hA.ne_nil
    exact ⟨c, _, rfl, .inl (by simp [hc])⟩
  | fraction hB => exact ⟨'.', _, rfl, .inr rfl⟩
  | both hA hB =>
    obtain ⟨c, v, t, rfl, hc⟩ := hA.ne_nil
    exact ⟨c, _, rfl, .inl (by simp [hc])⟩

theorem takeSign_of {sign body : List Char} {σ : ℤ} (hs : SignOf sign σ) {c : Char} {t : List Char}
    (hb : body = c :: t) (hc : c ≠ '+' ∧ c ≠ '-') :
    takeSign (sign ++ body) = (decide (σ = -1), body) := by
  subst hb
  cases hs with
  | none =>
    unfold takeSign
    simp only [List.nil_append]
    split
    · simp_all
    · simp_all
    · rfl
  | plus => rfl
  | minus => rfl

theorem takeSign_parts (s : List Char) : ∃ sign σ, SignOf sign σ ∧ s = sign ++ (takeSign s).2 ∧
    (takeSign s).1 = decide (σ = -1) := by
  unfold takeSign
  split
  · exact ⟨['+'], 1, .plus, rfl, by simp⟩
  · exact ⟨['-'], -1, .minus, rfl, by simp⟩
  · exact ⟨[], 1, .none, rfl, by simp⟩

theorem signed_value {sign : List Char} {σ : ℤ} (hs : SignOf sign σ) (q : ℚ) :
    (if (decide (σ = -1)) = true then -q else q) = σ * q := by
  cases hs <;> simp

/-- `float(s)` returns `x` exactly when `s` is a literal of value `x`. -/
theorem readFloat_iff (hl : cd.Lawful) (hp : cd.PlainLetters) (s : List Char) (x : PyFloat) :
    readFloat cd s = some x ↔ FloatLiteral cd s x := by
  have winf : ∀ d ∈ "inf".toList, d ∈ "inftya".toList := by decide
  have winfinity : ∀ d ∈ "infinity".toList, d ∈ "inftya".toList := by decide
  have wnan : ∀ d ∈ "nan".toList, d ∈ "inftya".toList := by decide
  constructor
  · intro h
    unfold readFloat at h
    dsimp only at h
    obtain ⟨sign, σ, hs, hsplit, hsig⟩ := takeSign_parts (s.dropWhile cd.isSpace)
    set body := (takeSign (s.dropWhile cd.isSpace)).2 with hbody
    have hst : s = s.takeWhile cd.isSpace ++ (sign ++ body) := by
      rw [← hsplit, List.takeWhile_append_dropWhile]
    obtain ⟨post, hpo, hps⟩ := rstrip_spaces (cd := cd) body
    have hword : s = s.takeWhile cd.isSpace ++ sign ++ rstrip cd body ++ post := by
      rw [List.append_assoc, List.append_assoc, ← hpo]
      exact hst
    split at h
    · rename_i hw
      simp only [Option.some.injEq] at h
      refine ⟨_, sign, rstrip cd body, post, σ, hword, takeWhile_all s, hps, hs, .inr (.inl ⟨?_, ?_⟩)⟩
      · rw [anyCase_iff winf, anyCase_iff winfinity]
        exact hw
      · rw [← h, hsig]
    · split at h
      · rename_i hw
        simp only [Option.some.injEq] at h
        refine ⟨_, sign, rstrip cd body, post, σ, hword, takeWhile_all s, hps, hs,
          .inr (.inr ⟨?_, h.symm⟩)⟩
        rw [anyCase_iff wnan]
        exact hw
      · split at h
        · cases h
        · rename_i q rest hscan
          split at h
          · rename_i hall
            simp only [Option.some.injEq] at h
            obtain ⟨m, ex, ds, fs, e, hm, hM, hE, hq⟩ := scanNumber_sound hscan
            refine ⟨s.takeWhile cd.isSpace, sign, m ++ ex, rest, σ, ?_, takeWhile_all s,
              by simpa using hall, hs, .inl ⟨m, ex, ds, fs, e, rfl, hM, hE, ?_⟩⟩
            · rw [List.append_assoc, List.append_assoc, ← hm]
              exact hst
            · rw [nearest64_iff, ← h, hsig, signed_value hs, hq]
          · cases h
  · rintro ⟨pre, sign, body, post, σ, rfl, hpre, hpost, hs, hbody⟩
    have hnsp : ∀ c, (cd.digit c).isSome ∨ c = '.' →
        cd.isSpace c = false ∧ c ≠ '+' ∧ c ≠ '-' ∧ lowerAscii c ≠ 'i' ∧ lowerAscii c ≠ 'n' := by
      intro c hc
      have hletter : ∀ d, d ∈ ".eEinftyaINFTYA".toList → d ≠ '.' → c ≠ d := by
        rintro d hd hdd rfl
        rcases hc with hc | hc
        · rw [(hp _ hd).1] at hc
          cases hc
        · exact hdd hc
      refine ⟨?_, ?_, ?_, ?_, ?_⟩
      · rcases hc with hc | rfl
        · by_contra hne
          rw [hl.space_not_digit c (by simpa using hne)] at hc
          cases hc
        · exact (hp '.' (by decide)).2
      · rintro rfl
        rcases hc with hc | hc
        · rw [hl.plus.1] at hc; cases hc
        · exact absurd hc (by decide)
      · rintro rfl
        rcases hc with hc | hc
        · rw [hl.minus.1] at hc; cases hc
        · exact absurd hc (by decide)
      · rw [Ne, lowerAscii_iff (by decide)]
        rintro (h | h)
        · exact hletter 'i' (by decide) (by decide) h
        · exact hletter 'I' (by decide) (by decide) h
      · rw [Ne, lowerAscii_iff (by decide)]
        rintro (h | h)
        · exact hletter 'n' (by decide) (by decide) h
        · exact hletter 'N' (by decide) (by decide) h
    -- the start of what follows the blanks
    have hstart : ∀ c t, body = c :: t → cd.isSpace c = false ∧ c ≠ '+' ∧ c ≠ '-' →
        takeSign ((pre ++ sign ++ body ++ post).dropWhile cd.isSpace) =
          (decide (σ = -1), body ++ post) := by
      intro c t hb hc
      have hdrop : (pre ++ sign ++ body ++ post).dropWhile cd.isSpace = sign ++ (body ++ post) := by
        rw [List.append_assoc, List.append_assoc]
        subst hb
        cases hs with
        | none => exact dropWhile_append_of_head hpre rfl hc.1
        | plus => exact dropWhile_append_of_head hpre rfl hl.plus.2
        | minus => exact dropWhile_append_of_head hpre rfl hl.minus.2
      rw [hdrop]
      exact takeSign_of hs (c := c) (t := t ++ post) (by rw [hb]; rfl) hc.2
    unfold readFloat
    dsimp only
    rcases hbody with ⟨m, ex, ds, fs, e, rfl, hM, hE, hx⟩ | ⟨hw, rfl⟩ | ⟨hw, rfl⟩
    · obtain ⟨c, t, rfl, hc⟩ := hM.head
      obtain ⟨n1, n2, n3, n4, n5⟩ := hnsp c hc
      rw [hstart c (t ++ ex) rfl ⟨n1, n2, n3⟩]
      dsimp only
      obtain ⟨t', ht'⟩ := rstrip_head (t := t ++ ex ++ post) n1
      have hr : rstrip cd (c :: t ++ ex ++ post) = c :: t' := ht'
      rw [hr, if_neg, if_neg, scanNumber_complete hl hp hM hE hpost]
      · dsimp only
        rw [if_pos (by simpa using hpost), signed_value hs]
        rw [nearest64_iff] at hx
        rw [hx]
      · rw [List.map_cons]
        intro h
        exact n5 (List.cons.inj h).1
      · rw [List.map_cons]
        rintro (h | h)
        · exact n4 (List.cons.inj h).1
        · exact n4 (List.cons.inj h).1
    · have hb : ∃ w, w ≠ [] ∧ (w = "inf".toList ∨ w = "infinity".toList) ∧ AnyCase body w ∧
          ∀ d ∈ w, d ∈ "inftya".toList := by
        rcases hw with hw | hw
        · exact ⟨_, by decide, .inl rfl, hw, winf⟩
        · exact ⟨_, by decide, .inr rfl, hw, winfinity⟩
      obtain ⟨w, hne, hw1, hw2, hw3⟩ := hb
      have hpl := hw2.plain hp hw3
      cases body with
      | nil =>
        cases hw2
        exact absurd rfl hne
      | cons c t =>
        rw [hstart c t rfl (hpl c (by simp))]
        dsimp only
        rw [rstrip_append hpost fun c hc => (hpl c hc).1, (anyCase_iff hw3).1 hw2, if_pos hw1]
    · have hpl := hw.plain hp wnan
      cases body with
      | nil => cases hw
      | cons c t =>
        rw [hstart c t rfl (hpl c (by simp))]
        dsimp only
        rw [rstrip_append hpost fun c hc => (hpl c hc).1, (anyCase_iff wnan).1 hw, if_neg (by decide),
          if_pos rfl]

end Verif
