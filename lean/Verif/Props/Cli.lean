import Verif.Lemmas.Cli
import Verif.Props.Writers

/-!
# C58–C60: the command line
-/

namespace Verif

/-! ## C58 -/

/-- `t` is `vs` with one trailing `1` removed. -/
def DropsTrailingOne (vs t : List ℤ) : Prop :=
  vs = t ++ [1] ∨ (t = vs ∧ ¬ ∃ ws, vs = ws ++ [1])

theorem getLast?_one_iff (vs : List ℤ) : vs.getLast? = some 1 ↔ ∃ ws, vs = ws ++ [1] := by
  constructor
  · intro h
    exact ⟨vs.dropLast, (List.dropLast_append_getLast? 1 h).symm⟩
  · rintro ⟨ws, rfl⟩
    simp

/-- **C58** (accepted strings).  `parse_tuple` returns `t` exactly when the string consists of two
or three comma separated positive integer literals whose values, one trailing `1` removed, are
`t`. -/
theorem C58_accepts (cd : CharData) (hl : cd.Lawful) (s : List Char) (t : List ℤ) :
    parseTuple cd s = .ok t ↔
      ∃ parts vs, CommaParts s parts ∧ List.Forall₂ (IntLiteral cd) parts vs ∧
        (vs.length = 2 ∨ vs.length = 3) ∧ (∀ v ∈ vs, 0 < v) ∧ DropsTrailingOne vs t := by
  constructor
  · intro h
    unfold parseTuple at h
    cases hm : pyMap (pyInt cd) (splitComma s) with
    | error e => rw [hm] at h; simp at h
    | ok vs =>
      rw [hm] at h
      by_cases h1 : vs.length = 2 ∨ vs.length = 3
      · by_cases h2 : vs.all (fun x => decide (0 < x)) = true
        · refine ⟨splitComma s, vs, splitComma_parts s, (pyMap_pyInt cd hl _ _).1 hm, h1,
            by simpa using h2, ?_⟩
          simp only [h1, h2, if_true] at h
          by_cases h3 : vs.getLast? = some 1
          · simp only [h3, if_true, Except.ok.injEq] at h
            left
            rw [← h]
            exact (List.dropLast_append_getLast? 1 h3).symm
          · simp only [h3, if_false, Except.ok.injEq] at h
            exact .inr ⟨h.symm, fun hx => h3 ((getLast?_one_iff vs).2 hx)⟩
        · simp [h1, h2] at h
      · simp [h1] at h
  · rintro ⟨parts, vs, hp, hf, h1, h2, h3⟩
    have hm := (pyMap_pyInt cd hl _ _).2 hf
    rw [hp.eq_splitComma] at hm
    have h2' : vs.all (fun x => decide (0 < x)) = true := by simpa using h2
    unfold parseTuple
    simp only [hm, h1, h2', if_true]
    rcases h3 with h3 | ⟨rfl, h3⟩
    · subst h3
      simp
    · rw [if_neg (fun hx => h3 ((getLast?_one_iff t).1 hx))]

/-- **C58** (rejected strings).  Every other string raises `ValueError` (which `argparse` reports
as a usage error). -/
theorem C58_rejects (cd : CharData) (s : List Char) (e : PyErr)
    (h : parseTuple cd s = .error e) : e = .valueError := by
  unfold parseTuple at h
  cases hm : pyMap (pyInt cd) (splitComma s) with
  | error e' =>
    rw [hm] at h
    simp only [Except.error.injEq] at h
    exact h ▸ pyMap_pyInt_error cd _ e' hm
  | ok vs =>
    rw [hm] at h
    by_cases h1 : vs.length = 2 ∨ vs.length = 3
    · by_cases h2 : vs.all (fun x => decide (0 < x)) = true
      · by_cases h3 : vs.getLast? = some 1 <;> simp [h1, h2, h3] at h
      · simp [h1, h2] at h; exact h.symm
    · simp [h1] at h; exact h.symm

/-! ## C59 -/

/-- **C59**, for every accepted string that is not of the form `a,1`: the shape has length two or
three, its entries are positive, and for matching numbers of values both writers accept it --
the MATLAB writer for planar and spatial particles, the VTK writer for spatial particles and,
if the shape has length two, for planar ones.

Partial: `a,1` is accepted with a shape of length one (`C59_short_fails`), and a shape of length
three is unusable for planar particles with the VTK writer (`C59_planar_fails`). -/
theorem C59_usable_partial {K F : Type} [Zero K] (cd : CharData) (hl : cd.Lawful)
    (s : List Char) (t : List ℤ) (h : parseTuple cd s = .ok t)
    (hne : ∀ parts vs, CommaParts s parts → List.Forall₂ (IntLiteral cd) parts vs →
      ∀ a, vs ≠ [a, 1]) :
    (t.length = 2 ∨ t.length = 3) ∧ (∀ v ∈ t, 0 < v) ∧
    ∀ (name : String) (field : NDArray F) (centroids : NDArray K) (n d : ℕ), (d = 2 ∨ d = 3) →
      field.shape = [n] → centroids.shape = [n, d] → (t.map Int.toNat).prod = n →
      (∃ f, ((Writer.fresh .mat (some (t.map Int.toNat))).write name field centroids).2 = .ok f) ∧
      (t.length ≤ d →
        ∃ f, ((Writer.fresh .vtk (some (t.map Int.toNat))).write name field centroids).2 =
          .ok f) := by
  obtain ⟨parts, vs, hp, hf, h1, h2, h3⟩ := (C58_accepts cd hl s t).1 h
  have hlen : t.length = 2 ∨ t.length = 3 := by
    rcases h3 with h3 | ⟨h3, -⟩
    · subst h3
      rcases h1 with h1 | h1
      · exfalso
        simp at h1
        match t, h1 with
        | [a], _ => exact hne parts _ hp hf a rfl
      · simp at h1; omega
    · rw [h3]; exact h1
  refine ⟨hlen, ?_, ?_⟩
  · intro v hv
    rcases h3 with h3 | ⟨h3, -⟩
    · exact h2 v (by rw [h3]; simp [hv])
    · exact h2 v (h3 ▸ hv)
  · intro name field centroids n d hd hfs hcs hn
    rcases hlen with hlen | hlen
    · match t, hlen with
      | [a, b], _ =>
        obtain ⟨f, hf1, -⟩ := C54_structured (.two a.toNat b.toNat) name field centroids n d hd hfs
          hcs hn
        refine ⟨⟨f, hf1⟩, fun _ => ?_⟩
        obtain ⟨g, hg, -⟩ := writeVtk_two a.toNat b.toNat name field centroids n d hd hfs hcs
          (by simpa using hn)
        exact ⟨g, by rw [fresh_write _ _ _ _ _ hcs]; exact hg⟩
    · match t, hlen with
      | [a, b, c], _ =>
        obtain ⟨f, hf1, -⟩ := C54_structured (.three a.toNat b.toNat c.toNat) name field centroids
          n d hd hfs hcs hn
        refine ⟨⟨f, hf1⟩, fun h3 => ?_⟩
        obtain rfl : d = 3 := by simp at h3; omega
        obtain ⟨g, hg, -⟩ := writeVtk_three a.toNat b.toNat c.toNat name field centroids n hfs hcs
          (by simpa [Nat.mul_assoc] using hn)
        exact ⟨g, by rw [fresh_write _ _ _ _ _ hcs]; exact hg⟩

/-- **C59 is false**: `a,1` is accepted for every positive literal `a`, with a shape of length one,
which both writers refuse whatever the field. -/
theorem C59_short_fails {K F : Type} [Zero K] (cd : CharData) (hl : cd.Lawful)
    (a b : List Char) (v : ℤ) (ha : IntLiteral cd a v) (hb : IntLiteral cd b 1) (hv : 0 < v)
    (ha' : ',' ∉ a) (hb' : ',' ∉ b) :
    parseTuple cd (a ++ ',' :: b) = .ok [v] ∧
    ∀ (kind : WriterKind) (name : String) (field : NDArray F) (centroids : NDArray K) (n d : ℕ),
      centroids.shape = [n, d] →
      ((Writer.fresh kind (some [v.toNat])).write name field centroids).2 = .error .valueError := by
  refine ⟨(C58_accepts cd hl _ _).2 ⟨[a, b], [v, 1], ⟨by simp, by simp [ha', hb'], by simp⟩,
    .cons ha (.cons hb .nil), .inl rfl, by simp [hv], .inl rfl⟩, ?_⟩
  intro kind name field centroids n d hc
  rw [fresh_write _ _ _ _ _ hc]
  cases kind <;> rfl

/-- **C59 is false**: a shape of length three of the right size cannot be used by the VTK writer
for planar particles (`IndexError`). -/
theorem C59_planar_fails {K F : Type} [Zero K] (nx ny nz : ℕ) (name : String)
    (field : NDArray F) (centroids : NDArray K) (n : ℕ) (hc : centroids.shape = [n, 2])
    (hn : nx * ny * nz = n) :
    ((Writer.fresh .vtk (some [nx, ny, nz])).write name field centroids).2 =
      .error .indexError := by
  have hp : ([nx, ny, nz] : List ℕ).prod = n := by simp [← hn, Nat.mul_assoc]
  obtain ⟨c, hc1, hc2, -⟩ := reshapeC_coords centroids hc hp
  simp only [List.cons_append, List.nil_append] at hc1
  have hx := lastCol_ok c hc2 (show 0 < 2 by omega)
  have hy := lastCol_ok c hc2 (show 1 < 2 by omega)
  have hz : lastCol c 2 = .error .indexError := by simp [lastCol, hc2]
  rw [fresh_write _ _ _ _ _ hc]
  simp only [writeVtk, hc1, hx, hy, hz]

/-! ## C60 -/

/-- **C60 is false**: whatever else is given, omitting any of the three options makes the set-up
fail; no default takes effect. -/
theorem C60_defaults_fails {K : Type} [Zero K] (lower : String → String) (o : CliOptions)
    (g : Option (List ℕ))
    (h : o.integrator = none ∨ o.interpolator = none ∨ o.outputFormat = none) :
    ∀ r : AnyInterp K × Kind × WriterKind, setup lower o g ≠ .ok r := by
  intro r hr
  unfold setup at hr
  cases hi : cliInterpolator (K := K) lower o.interpolator g with
  | error e => rw [hi] at hr; simp at hr
  | ok i =>
    rw [hi] at hr
    cases hk : cliIntegrator lower o.integrator with
    | error e => rw [hk] at hr; simp at hr
    | ok k =>
      rw [hk] at hr
      cases hw : cliWriter o.outputFormat with
      | error e => rw [hw] at hr; simp at hr
      | ok w =>
        rcases h with h | h | h
        · simp [h, cliIntegrator] at hk
        · simp [h, cliInterpolator] at hi
        · simp [h, cliWriter] at hw

/-- The exceptions of `C60_defaults_fails` when exactly one option is omitted. -/
theorem C60_exceptions_fails {K : Type} [Zero K] (lower : String → String)
    (hlow : ∀ s ∈ ["rk4", "euler", "ab2", "cubic", "linear", "nearest", "grid"], lower s = s)
    (shape : List ℕ) (integ interp fmt : String) (hi : integ ∈ integratorChoices)
    (hp : interp ∈ interpolatorChoices) :
    setup (K := K) lower ⟨some integ, none, some fmt⟩ (some shape) = .error .attributeError ∧
    setup (K := K) lower ⟨none, some interp, some fmt⟩ (some shape) = .error .attributeError ∧
    setup (K := K) lower ⟨some integ, some interp, none⟩ (some shape) = .error .valueError := by
  simp only [List.mem_cons, List.not_mem_nil, or_false, forall_eq_or_imp, forall_eq] at hlow
  obtain ⟨h1, h2, h3, h4, h5, h6, h7⟩ := hlow
  simp only [integratorChoices, interpolatorChoices, List.mem_cons, List.not_mem_nil,
    or_false] at hi hp
  refine ⟨rfl, ?_, ?_⟩
  · rcases hp with rfl | rfl | rfl | rfl <;>
      simp [setup, cliInterpolator, createInterpolator, cliIntegrator, *]
  · rcases hp with rfl | rfl | rfl | rfl <;> rcases hi with rfl | rfl | rfl <;>
      simp [setup, cliInterpolator, createInterpolator, cliIntegrator, createIntegrator,
        cliWriter, *]

/-- **C60**, when all three options are given: accepted values select what they name (with a flow
grid shape; without one `grid` raises `TypeError`).

Partial: the documented defaults do not exist, see `C60_defaults_fails`. -/
theorem C60_given_partial {K : Type} [Zero K] (lower : String → String)
    (hlow : ∀ s ∈ ["rk4", "euler", "ab2", "cubic", "linear", "nearest", "grid"], lower s = s)
    (g : Option (List ℕ)) (integ interp fmt : String)
    (ho : CliOptions.Accepted ⟨some integ, some interp, some fmt⟩) :
    (g = none ∧ interp = "grid" →
      setup (K := K) lower ⟨some integ, some interp, some fmt⟩ g = .error .typeError) ∧
    (¬ (g = none ∧ interp = "grid") → ∃ (i : AnyInterp K) (k : Kind) (w : WriterKind),
      setup lower ⟨some integ, some interp, some fmt⟩ g = .ok (i, k, w) ∧
      (k = .euler ↔ integ = "euler") ∧ (k = .rk4 ↔ integ = "rk4") ∧ (k = .ab2 ↔ integ = "ab2") ∧
      (w = .mat ↔ fmt = "mat") ∧ (w = .vtk ↔ fmt = "vtk")) := by
  simp only [List.mem_cons, List.not_mem_nil, or_false, forall_eq_or_imp, forall_eq] at hlow
  obtain ⟨h1, h2, h3, h4, h5, h6, h7⟩ := hlow
  obtain ⟨a1, a2, a3⟩ := ho
  simp only [Option.mem_def, Option.some.injEq, forall_eq', integratorChoices,
    interpolatorChoices, formatChoices, List.mem_cons, List.not_mem_nil, or_false] at a1 a2 a3
  constructor
  · rintro ⟨rfl, rfl⟩
    simp [setup, cliInterpolator, createInterpolator, *]
  · intro hg
    rcases g with _ | g
    · rcases a2 with rfl | rfl | rfl | rfl
      case inr.inr.inr => exact absurd ⟨rfl, rfl⟩ hg
      all_goals
        rcases a1 with rfl | rfl | rfl <;> rcases a3 with rfl | rfl <;>
          simp [setup, cliInterpolator, createInterpolator, cliIntegrator, createIntegrator,
            cliWriter, createWriter, *]
    · rcases a2 with rfl | rfl | rfl | rfl <;> rcases a1 with rfl | rfl | rfl <;>
        rcases a3 with rfl | rfl <;>
        simp [setup, cliInterpolator, createInterpolator, cliIntegrator, createIntegrator,
          cliWriter, createWriter, *]

/-! ## Concrete cases -/

theorem asciiData_lawful : asciiData.Lawful where
  space_not_digit c h := by
    simp only [asciiData, decide_eq_true_eq] at h
    rcases h with rfl | rfl | rfl | rfl | rfl | rfl <;> decide
  plus := by decide
  minus := by decide
  underscore := by decide

example : parseTuple asciiData " 128, 1_28 ,+0256".toList = .ok [128, 128, 256] := by decide +kernel
example : parseTuple asciiData "10,20,1".toList = .ok [10, 20] := by decide +kernel
example : parseTuple asciiData "10,20,".toList = .error .valueError := by decide +kernel
example : parseTuple asciiData "10,2 0".toList = .error .valueError := by decide +kernel
example : parseTuple asciiData "10,-2".toList = .error .valueError := by decide +kernel

/-- `" 12 "` is a literal of value 12. -/
theorem exLiteral : IntLiteral asciiData [' ', '1', '2', ' '] 12 :=
  ⟨[' '], [], ['1', '2'], [' '], 1, [1, 2], rfl, by decide, by decide, .none,
    .cons (by decide) (.one (by decide)), by decide, by decide⟩

example : ∃ parts vs, CommaParts "10,20".toList parts ∧
    List.Forall₂ (IntLiteral asciiData) parts vs ∧ (vs.length = 2 ∨ vs.length = 3) ∧
    (∀ v ∈ vs, 0 < v) ∧ DropsTrailingOne vs [10, 20] :=
  (C58_accepts asciiData asciiData_lawful _ _).1 (by decide +kernel)

example : parseTuple asciiData (" 12 ".toList ++ ',' :: "1".toList) = .ok [12] :=
  (C59_short_fails (K := ℤ) (F := ℤ) asciiData asciiData_lawful _ _ 12 exLiteral
    ⟨[], [], ['1'], [], 1, [1], rfl, by simp, by simp, .none, .one (by decide), by decide,
      by decide⟩ (by decide) (by decide) (by decide)).1

/-- The hypothesis of `C59_usable_partial` holds for `10,20`. -/
example : ([10, 20] : List ℤ).length = 2 ∨ ([10, 20] : List ℤ).length = 3 :=
  (C59_usable_partial (K := ℤ) (F := ℤ) asciiData asciiData_lawful "10,20".toList [10, 20]
    (by decide +kernel) (by
      rintro parts vs hp hf a rfl
      have h1 := hp.eq_splitComma
      have h2 := (pyMap_pyInt asciiData asciiData_lawful _ _).2 hf
      rw [h1] at h2
      have h3 : pyMap (pyInt asciiData) (splitComma "10,20".toList) = .ok [10, 20] := by
        decide +kernel
      rw [h3] at h2
      simp at h2)).1

example : ((Writer.fresh .vtk (some [2, 2, 2])).write "a" (exWField 8) (exWCentroids 8 2)).2 =
    .error .indexError :=
  C59_planar_fails 2 2 2 "a" _ _ 8 rfl rfl

example : ∃ (i : AnyInterp ℤ) (k : Kind) (w : WriterKind),
    setup id ⟨some "rk4", some "cubic", some "vtk"⟩ none = .ok (i, k, w) ∧
      (k = .euler ↔ "rk4" = "euler") ∧ (k = .rk4 ↔ "rk4" = "rk4") ∧ (k = .ab2 ↔ "rk4" = "ab2") ∧
      (w = .mat ↔ "vtk" = "mat") ∧ (w = .vtk ↔ "vtk" = "vtk") :=
  (C60_given_partial id (by simp) none "rk4" "cubic" "vtk" (by
    simp [CliOptions.Accepted, integratorChoices, interpolatorChoices, formatChoices])).2 (by
    decide)

end Verif
