import Verif.Lemmas.Valueless
import Verif.Props.Config
import Verif.Props.FloatText

/-!
# C121: entries of a configuration file without a value
-/

namespace Verif

section
variable {K : Type} (cd : CharData) (float : Str → Option K) (json : Str → List Str)
  (fs : Str → Option Str)

/-- **C121** (what is read).  A file may contain lines that name an option and give no value.  A key
alone is read as the word `true`, a key with `:` or `=` as the empty string, and where a comment
stands in place of the value, the comment is the value. -/
theorem C121_read (hm : Marks cd.isSpace) {text : Str} {lines : List Str} {es : List (Str × Str)}
    (ht : HasLines text lines) (hs : LinesRead cd.isSpace lines es) (hd : (es.map Prod.fst).Nodup)
    (hb : ∀ e ∈ es, e.2.head? ≠ some '[' ∨ e.2.getLast? ≠ some ']') :
    configItems cd json text = some (es.map fun e => (e.1, .text e.2)) := by
  rw [configItems_lines json ht, configLines_reads hm json hs [] (by simpa using hd) hb,
    List.nil_append]

/-- **C121** (what it means).  `pyftle -c FILE` with such a file: the result is the meaning of the
options with the values read. -/
theorem C121_meaning (hl : cd.Lawful) (hm : Marks cd.isSpace) {p text : Str} (hp : Plain cd p)
    (hne : p ≠ []) (hfile : fs p = some text) {lines : List Str} {es : List (Str × Str)}
    (ht : HasLines text lines) (hs : LinesRead cd.isSpace lines es) (hd : (es.map Prod.fst).Nodup)
    (hb : ∀ e ∈ es, e.2.head? ≠ some '[' ∨ e.2.getLast? ≠ some ']') {l : List (Opt × Str)}
    (hopt : List.Forall₂ (fun e q => KeyFor e.1 q.1 ∧ q.2 = e.2) es l)
    (hv : ∀ q ∈ l, q.1.Valued) (ns : Namespace K) :
    parseCommand cd float json fs ["-c".toList, p] = .ok ns ↔ Denotes cd float l ns :=
  documented_items cd float json fs hl hp hne hfile (C121_read cd json hm ht hs hd hb) hopt hv ns

end

/-! ## Which options notice -/

variable {cd : CharData}

/-- `s` cannot be a number: it is empty, or starts with a character no number starts with. -/
def NoNumber (cd : CharData) (s : Str) : Prop :=
  ∀ c ∈ s.head?, cd.isSpace c = false ∧ cd.digit c = none ∧ c ≠ '+' ∧ c ≠ '-' ∧ c ≠ '.' ∧
    c ∉ "inIN".toList

theorem DigitBody.first {b : Str} {ds : List ℕ} (h : DigitBody cd b ds) :
    ∃ c t, b = c :: t ∧ cd.digit c ≠ none := by
  cases h with
  | one h => exact ⟨_, _, rfl, by simp [h]⟩
  | cons h _ => exact ⟨_, _, rfl, by simp [h]⟩
  | underscore h _ => exact ⟨_, _, rfl, by simp [h]⟩

/-- What stands at the start of a number. -/
theorem head_blank_sign {pre sign body post : Str} {σ : ℤ} (hpre : ∀ c ∈ pre, cd.isSpace c = true)
    (hσ : SignOf sign σ) {c : Char} {t : Str} (hb : body = c :: t) :
    ∃ d ∈ (pre ++ sign ++ body ++ post).head?,
      cd.isSpace d = true ∨ d = '+' ∨ d = '-' ∨ d = c := by
  cases pre with
  | cons x pre => exact ⟨x, by simp, .inl (hpre x (by simp))⟩
  | nil =>
    cases hσ with
    | none => exact ⟨c, by simp [hb], by simp⟩
    | plus => exact ⟨'+', by simp, by simp⟩
    | minus => exact ⟨'-', by simp, by simp⟩

theorem NoNumber.int {s : Str} (h : NoNumber cd s) (v : ℤ) : ¬ IntLiteral cd s v := by
  rintro ⟨pre, sign, body, post, σ, ds, rfl, h1, -, h2, h3, -⟩
  obtain ⟨c, t, hb, hc⟩ := h3.first
  obtain ⟨d, hd, e⟩ := head_blank_sign (post := post) h1 h2 hb
  obtain ⟨n1, n2, n3, n4, -⟩ := h d hd
  rcases e with e | e | e | rfl
  · rw [n1] at e; cases e
  · exact n3 e
  · exact n4 e
  · exact hc n2

theorem NoNumber.float {s : Str} (h : NoNumber cd s) (x : PyFloat) : ¬ FloatLiteral cd s x := by
  rintro ⟨pre, sign, body, post, σ, rfl, h1, -, h2, h3⟩
  have key : ∃ c t, body = c :: t ∧ (cd.digit c ≠ none ∨ c = '.' ∨ c ∈ "inIN".toList) := by
    rcases h3 with ⟨m, ex, ds, fs, e, rfl, hn, -⟩ | ⟨hw, -⟩ | ⟨hw, -⟩
    · cases hn with
      | whole hd =>
        obtain ⟨c, t, rfl, hc⟩ := hd.first
        exact ⟨c, t ++ ex, rfl, .inl hc⟩
      | point hd =>
        obtain ⟨c, t, rfl, hc⟩ := hd.first
        exact ⟨c, t ++ ['.'] ++ ex, by simp, .inl hc⟩
      | fraction hd => exact ⟨'.', _, rfl, .inr (.inl rfl)⟩
      | both hd _ =>
        obtain ⟨c, t, rfl, hc⟩ := hd.first
        exact ⟨c, _, rfl, .inl hc⟩
    · have : ∃ c t, body = c :: t ∧ (c = 'i' ∨ c = 'I') := by
        rcases hw with hw | hw
        · cases hw with
          | @cons c d t _ hc _ => exact ⟨c, t, rfl, hc⟩
        · cases hw with
          | @cons c d t _ hc _ => exact ⟨c, t, rfl, hc⟩
      obtain ⟨c, t, hb, hc⟩ := this
      exact ⟨c, t, hb, .inr (.inr (by rcases hc with rfl | rfl <;> decide))⟩
    · have : ∃ c t, body = c :: t ∧ (c = 'n' ∨ c = 'N') := by
        cases hw with
        | @cons c d t _ hc _ => exact ⟨c, t, rfl, hc⟩
      obtain ⟨c, t, hb, hc⟩ := this
      exact ⟨c, t, hb, .inr (.inr (by rcases hc with rfl | rfl <;> decide))⟩
  obtain ⟨c, t, hb, hc⟩ := key
  obtain ⟨d, hd, e⟩ := head_blank_sign (post := post) h1 h2 hb
  obtain ⟨n1, n2, n3, n4, n5, n6⟩ := h d hd
  rcases e with e | e | e | rfl
  · rw [n1] at e; cases e
  · exact n3 e
  · exact n4 e
  · rcases hc with hc | hc | hc
    · exact hc n2
    · exact n5 hc
    · exact n6 hc

theorem NoNumber.shape {s : Str} (h : NoNumber cd s) (t : List ℤ) : ¬ ShapeLiteral cd s t := by
  rintro ⟨parts, vs, ⟨hne, -, rfl⟩, hf, -⟩
  obtain ⟨p, ps, rfl⟩ := List.exists_cons_of_ne_nil hne
  cases hf with
  | @cons _ v _ _ hp _ =>
    refine NoNumber.int (s := p) (fun c hc => h c ?_) v hp
    obtain ⟨c', p', rfl⟩ : ∃ c' p', p = c' :: p' := by
      cases p with
      | nil => cases hc
      | cons c' p' => exact ⟨c', p', rfl⟩
    cases ps with
    | nil => simpa using hc
    | cons y ps => simpa using hc

/-- The values that lines without a value are given are no numbers. -/
theorem Valueless.noNumber (hm : Marks cd.isSpace) (hp : cd.PlainLetters)
    (hd : cd.digit ';' = none ∧ cd.digit '#' = none) {line key v : Str}
    (h : Valueless cd.isSpace line key v) : NoNumber cd v := by
  have ht : NoNumber cd "true".toList := by
    intro c hc
    have : c = 't' := by simpa using hc.symm
    subst this
    obtain ⟨h1, h2⟩ := hp 't' (by decide)
    exact ⟨h2, h1, by decide, by decide, by decide, by decide⟩
  have he : NoNumber cd [] := by
    intro c hc
    cases hc
  cases h with
  | alone => exact ht
  | sign => exact he
  | quotes => exact he
  | quotesTrue => exact ht
  | remark _ _ _ hw _ =>
    intro c hc
    have : c = ';' ∨ c = '#' := by
      rcases hw.first with h | h <;> rw [h] at hc
      · exact .inl (by simpa using hc.symm)
      · exact .inr (by simpa using hc.symm)
    rcases this with rfl | rfl
    · exact ⟨hm _ (by decide), hd.1, by decide, by decide, by decide, by decide⟩
    · exact ⟨hm _ (by decide), hd.2, by decide, by decide, by decide, by decide⟩

/-- The options whose value is a name: of the experiment or of a list file. -/
def Opt.Text (o : Opt) : Prop :=
  o = .experimentName ∨ o = .listVelocityFiles ∨ o = .listCoordinateFiles ∨ o = .listParticleFiles

theorem Valueless.invalid (hl : cd.Lawful) (hm : Marks cd.isSpace) (hp : cd.PlainLetters)
    (hd : cd.digit ';' = none ∧ cd.digit '#' = none) {line key v : Str}
    (h : Valueless cd.isSpace line key v) {o : Opt} (ho : o.Valued) (ht : ¬ o.Text)
    (x : OptType PyFloat o) : ¬ ValueOf cd (readFloat cd) o v x := by
  have hn := h.noNumber hm hp hd
  have hw : ∀ c ∈ v.head?, c ∈ "t;#".toList := by
    intro c hc
    cases h with
    | alone => simp at hc; simp [← hc]
    | sign => cases hc
    | quotes => cases hc
    | quotesTrue => simp at hc; simp [← hc]
    | remark _ _ _ hw _ =>
      rcases hw.first with h | h <;> rw [h] at hc <;> simp at hc <;> simp [← hc]
  have hword : ∀ {s : String} {c : Char} {t : Str}, s.toList = c :: t → c ∉ "t;#".toList →
      v ≠ s.toList := by
    rintro s c t hs hc rfl
    exact hc (hw c (by simp [hs]))
  intro hval
  cases o with
  | help => exact ho.1 rfl
  | config => exact ho.2 rfl
  | experimentName => exact ht (.inl rfl)
  | listVelocityFiles => exact ht (.inr (.inl rfl))
  | listCoordinateFiles => exact ht (.inr (.inr (.inl rfl)))
  | listParticleFiles => exact ht (.inr (.inr (.inr rfl)))
  | snapshotTimestep => exact hn.float x ((readFloat_iff hl hp v x).1 hval)
  | flowMapPeriod => exact hn.float x ((readFloat_iff hl hp v x).1 hval)
  | numProcesses => exact hn.int x hval
  | flowGridShape => exact hn.shape x hval
  | particlesGridShape => exact hn.shape x hval
  | integrator =>
    rcases hval.2 with e | e | e
    exacts [hword (s := "rk4") rfl (by decide) e, hword (s := "euler") rfl (by decide) e,
      hword (s := "ab2") rfl (by decide) e]
  | interpolator =>
    rcases hval.2 with e | e | e | e
    exacts [hword (s := "cubic") rfl (by decide) e, hword (s := "linear") rfl (by decide) e,
      hword (s := "nearest") rfl (by decide) e, hword (s := "grid") rfl (by decide) e]
  | outputFormat =>
    rcases hval.2 with e | e
    exacts [hword (s := "mat") rfl (by decide) e, hword (s := "vtk") rfl (by decide) e]

/-- **C121** (what holds).  If a line of the file gives no value for an option other than the name of
the experiment and the three list files, the program stops. -/
theorem C121_stops_partial (json : Str → List Str) (fs : Str → Option Str) (hl : cd.Lawful)
    (hm : Marks cd.isSpace) (hpl : cd.PlainLetters)
    (hdig : cd.digit ';' = none ∧ cd.digit '#' = none) {p text : Str} (hp : Plain cd p)
    (hne : p ≠ []) (hfile : fs p = some text) {lines : List Str} {es : List (Str × Str)}
    (ht : HasLines text lines) (hs : LinesRead cd.isSpace lines es) (hd : (es.map Prod.fst).Nodup)
    (hb : ∀ e ∈ es, e.2.head? ≠ some '[' ∨ e.2.getLast? ≠ some ']') {l : List (Opt × Str)}
    (hopt : List.Forall₂ (fun e q => KeyFor e.1 q.1 ∧ q.2 = e.2) es l)
    (hv : ∀ q ∈ l, q.1.Valued) {line : Str} {o : Opt} {v : Str} (hq : (o, v) ∈ l) {key : Str}
    (hline : Valueless cd.isSpace line key v) (hto : ¬ o.Text) (ns : Namespace PyFloat) :
    parseCommand cd (readFloat cd) json fs ["-c".toList, p] ≠ .ok ns := by
  intro h
  rw [C121_meaning cd (readFloat cd) json fs hl hm hp hne hfile ht hs hd hb hopt hv] at h
  obtain ⟨x, hx⟩ := h.valid _ hq
  exact hline.invalid hl hm hpl hdig (hv _ hq) hto x hx

/-! ## The hypotheses hold, and the claim fails -/

/-- The mandatory options but the name of the experiment, and these lines. -/
def cfgNameless (lines : List String) : Str := cfgText (lines ++ ["list_velocity_files = v",
  "list_coordinate_files c", "--list_particle_files:p", "snapshot_timestep: 0.1",
  "flow_map_period: '5'"])

/-- **An entry without a value leaves the option unset or stops the program: false of the code.**
The name of the experiment is then `true`, or empty, or the comment behind it. -/
theorem C121_default_fails :
    cfgResult (β := Str) (cfgNameless ["experiment_name"]) cfgRun (· .experimentName) =
      some "true".toList ∧
    cfgResult (β := Str) (cfgNameless ["experiment_name:"]) cfgRun (· .experimentName) =
      some [] ∧
    cfgResult (β := Str) (cfgNameless ["experiment_name: ''  # none"]) cfgRun (· .experimentName) =
      some [] ∧
    cfgResult (β := Str) (cfgNameless ["experiment_name \"\""]) cfgRun (· .experimentName) =
      some "true".toList ∧
    cfgResult (β := Str) (cfgNameless ["experiment_name:  # name of the run"]) cfgRun
      (· .experimentName) = some "# name of the run".toList ∧
    cfgResult (β := Str) (cfgNameless ["experiment_name # name of the run"]) cfgRun
      (· .experimentName) = some "# name of the run".toList ∧
    cfgEnds (cfgNameless []) cfgRun = some (.exit 2) := by
  refine ⟨?_, ?_, ?_, ?_, ?_, ?_, ?_⟩ <;> decide +kernel

/-- Other options notice. -/
example : cfgEnds (cfgShort ["num_processes"]) cfgRun = some (.exit 2) ∧
    cfgEnds (cfgShort ["integrator:"]) cfgRun = some (.exit 2) ∧
    cfgEnds (cfgShort ["flow_grid_shape:  # comment this line for unstructured data"]) cfgRun =
      some (.exit 2) := by
  refine ⟨?_, ?_, ?_⟩ <;> decide +kernel

theorem asciiData_key {key : Str} (h : key = "experiment_name".toList ∨ key = "integrator".toList) :
    Key asciiData.isSpace key := by
  rcases h with rfl | rfl <;> exact ⟨by simp, by simp [asciiData], by simp⟩

/-- The five forms. -/
example : Valueless asciiData.isSpace "integrator".toList "integrator".toList "true".toList ∧
    Valueless asciiData.isSpace "  integrator : ".toList "integrator".toList [] ∧
    Valueless asciiData.isSpace "integrator: ''  # none".toList "integrator".toList [] ∧
    Valueless asciiData.isSpace "integrator \"\"".toList "integrator".toList "true".toList ∧
    Valueless asciiData.isSpace "integrator:  # rk4 or ab2 ; see below".toList "integrator".toList
      "# rk4 or ab2".toList := by
  have hk := asciiData_key (key := "integrator".toList) (.inr rfl)
  refine ⟨?_, ?_, ?_, ?_, ?_⟩
  · exact .alone (a := []) (t := []) (by simp [Blank]) hk (by simp [Blank])
  · exact .sign (a := "  ".toList) (b := " ".toList) (c := ':') (t := " ".toList)
      (by simp [Blank, asciiData]) hk (by simp [Blank, asciiData]) (.inl rfl)
      (by simp [Blank, asciiData])
  · exact .quotes (a := []) (b := []) (c := ':') (d := " ".toList) (q := '\'')
      (r := "  # none".toList) (by simp [Blank]) hk (by simp [Blank]) (.inl rfl)
      (by simp [Blank, asciiData]) (.inl rfl) (by simp)
      (.inr ⟨"  ".toList, '#', " none".toList, by simp, by simp, by simp [Blank, asciiData],
        .inr rfl⟩)
  · exact .quotesTrue (a := []) (b := []) (q := '"') (r := []) (by simp [Blank]) hk (by simp [Blank])
      (.inr rfl) (by simp) (.inl (by simp [Blank])) (by simp [asciiData])
  · refine .remark (a := []) (b := ":  ".toList) (w := "# rk4 or ab2".toList)
      (r := " ; see below".toList) (by simp [Blank]) hk ?_ ⟨.inr rfl, by simp [asciiData], ?_⟩ ?_
    · exact .sign (a := []) (c := ':') (b := "  ".toList) (.inl rfl) (by simp [Blank])
        (by simp [Blank, asciiData])
    · intro a s c b h _
      have hc : c ∈ " rk4 or ab2".toList := by
        cases a with
        | nil =>
          rw [List.nil_append, show "# rk4 or ab2".toList = '#' :: " rk4 or ab2".toList from rfl,
            List.cons.injEq] at h
          rw [h.2]
          simp
        | cons y a =>
          rw [List.cons_append, show "# rk4 or ab2".toList = '#' :: " rk4 or ab2".toList from rfl,
            List.cons.injEq] at h
          rw [h.2]
          simp
      constructor <;> rintro rfl <;> simp at hc
    · exact .inr ⟨" ".toList, ';', " see below".toList, by simp, by simp, by simp [Blank, asciiData],
        .inl rfl⟩

/-- A file with one line meets the hypotheses of `C121_stops_partial`. -/
example (json : Str → List Str) (ns : Namespace PyFloat) :
    parseCommand asciiData (readFloat asciiData) json (cfgFiles "integrator".toList) cfgRun ≠
      .ok ns :=
  C121_stops_partial json _ asciiData_lawful (by unfold Marks; simp [asciiData])
    asciiData_plainLetters ⟨rfl, rfl⟩ (p := ['f'])
    (text := "integrator".toList) (.inl (by simp)) (by simp) rfl
    (lines := ["integrator".toList]) (es := [("integrator".toList, "true".toList)])
    ⟨by simp, .inl rfl⟩
    (.valueless (.alone (a := []) (t := []) (by simp [Blank]) (asciiData_key (.inr rfl))
      (by simp [Blank])) .nil)
    (by simp) (by simp [show "true".toList = ['t', 'r', 'u', 'e'] from rfl]) (l := [(.integrator, "true".toList)])
    (.cons ⟨.inr (by rfl), rfl⟩ .nil) (by simp [Opt.Valued]) (o := .integrator)
    (v := "true".toList) (by simp) (key := "integrator".toList) (line := "integrator".toList)
    (.alone (a := []) (t := []) (by simp [Blank]) (asciiData_key (.inr rfl)) (by simp [Blank]))
    (by simp [Opt.Text]) ns

end Verif
