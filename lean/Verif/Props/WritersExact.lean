import Verif.Props.Writers

/-!
# C55–C57, C71: exactly which calls of the writers are right

As in `Verif.Props.Writers`, `field` has one axis and `centroids` two; the number of values need not
be the number of centroids in C56.
-/

namespace Verif

variable {K F : Type}

/-! ## C56 -/

theorem mul_cancel_prod {a b d : ℕ} (hd : 0 < d) : a * d = b * d ↔ a = b :=
  ⟨Nat.eq_of_mul_eq_mul_right hd, fun h => by rw [h]⟩

theorem writeMat_iff (l : List ℕ) (hl : l ≠ []) (name : String) (field : NDArray F)
    (centroids : NDArray K) (m n d e : ℕ) (he : e = 2 ∨ e = 3) (hf : field.shape = [m])
    (hc : centroids.shape = [n, d]) :
    (∃ s, writeMat (some l) e name field centroids = .ok s) ↔
      (l.length = 2 ∨ l.length = 3) ∧ l.prod = m ∧ l.prod * e = n * d := by
  have key : ∀ sh : List ℕ, (∀ g, writeMat (some g) e name field centroids =
      (match field.reshapeC sh with
      | .error e => .error e
      | .ok f =>
        match centroids.reshapeC (sh ++ [e]) with
        | .error e => .error e
        | .ok c =>
          match lastCol c 0 with
          | .error e => .error e
          | .ok x =>
            match lastCol c 1 with
            | .error e => .error e
            | .ok y =>
              match optionalZ e (lastCol c 2) with
              | .error e => .error e
              | .ok z => .ok (.mat (name ++ ".mat") f x y z)) →
      ((∃ s, writeMat (some g) e name field centroids = .ok s) ↔
        sh.prod = m ∧ sh.prod * e = n * d)) := by
    intro sh g h
    rw [h]
    by_cases h1 : sh.prod = m
    · obtain ⟨f, hf1, -, -⟩ := reshapeC_field field hf h1
      simp only [hf1, h1, true_and]
      by_cases h2 : m * e = n * d
      · have hr : centroids.reshapeC (sh ++ [e]) =
            .ok ⟨sh ++ [e], fun idx => centroids.get (decC centroids.shape (encC (sh ++ [e]) idx))⟩ := by
          simp [NDArray.reshapeC, hc, h1, h2]
        have e0 := lastCol_ok (⟨sh ++ [e], fun idx => centroids.get (decC centroids.shape
          (encC (sh ++ [e]) idx))⟩ : NDArray K) rfl (show 0 < e by omega)
        have e1 := lastCol_ok (⟨sh ++ [e], fun idx => centroids.get (decC centroids.shape
          (encC (sh ++ [e]) idx))⟩ : NDArray K) rfl (show 1 < e by omega)
        rw [hr]
        simp only [e0, e1, h2, iff_true]
        rcases he with rfl | rfl
        · exact ⟨_, rfl⟩
        · have e2 := lastCol_ok (⟨sh ++ [3], fun idx => centroids.get (decC centroids.shape
            (encC (sh ++ [3]) idx))⟩ : NDArray K) rfl (show 2 < 3 by omega)
          simp only [e2, optionalZ, if_true]
          exact ⟨_, rfl⟩
      · have hr : centroids.reshapeC (sh ++ [e]) = .error .valueError := by
          simp [NDArray.reshapeC, hc, h1, Ne.symm h2]
        simp [hr, h2]
    · have hr : field.reshapeC sh = .error .valueError := by
        simp [NDArray.reshapeC, hf, Ne.symm h1]
      simp [hr, h1]
  match l, hl with
  | [a], _ => simp [writeMat]
  | _ :: _ :: _ :: _ :: _, _ => simp [writeMat]
  | [a, b], _ =>
    rw [key [a, b, 1] [a, b] rfl]
    simp
  | [a, b, c], _ =>
    rw [key [a, b, c] [a, b, c] rfl]
    simp

/-- **C56** (MATLAB, exactly).  A new MATLAB writer writes if and only if it has no shape or the empty
one (then the numbers of values and of centroids are not compared), or the shape has length two or
three and its product is the number of values and of centroids. -/
theorem C56_mat_iff [Zero K] (g : Option (List ℕ)) (name : String)
    (field : NDArray F) (centroids : NDArray K) (m n d : ℕ) (hd : d = 2 ∨ d = 3)
    (hf : field.shape = [m]) (hc : centroids.shape = [n, d]) :
    (∃ s, ((Writer.fresh .mat g).write name field centroids).2 = .ok s) ↔
      g = none ∨ g = some [] ∨
        ∃ l, g = some l ∧ (l.length = 2 ∨ l.length = 3) ∧ l.prod = m ∧ l.prod = n := by
  rw [fresh_write _ _ _ _ _ hc]
  dsimp only
  have flat : ∀ g : Option (List ℕ), g = none ∨ g = some [] →
      ∃ s, writeMat g d name field centroids = .ok s := by
    intro g hg
    rcases hg with rfl | rfl <;> rcases hd with rfl | rfl <;>
      simp [writeMat, column, hc, optionalZ]
  rcases g with - | l
  · simpa using flat none (.inl rfl)
  · by_cases hl : l = []
    · subst hl
      simpa using flat (some []) (.inr rfl)
    · rw [writeMat_iff l hl name field centroids m n d d hd hf hc,
        mul_cancel_prod (show 0 < d by omega)]
      simp [hl]

/-- The number of cells along an axis with `n` nodes: one less, but a single node counts as one. -/
def cellsAlong (n : ℕ) : ℕ := if n ≤ 1 then n else n - 1

theorem structuredCells_two (nx ny : ℕ) :
    structuredCells [nx, ny, 1] = cellsAlong nx * cellsAlong ny := by
  rcases nx with - | - | nx <;> rcases ny with - | - | ny <;> simp [structuredCells, cellsAlong]

/-- **C56** (VTK, exactly).  A new VTK writer writes if and only if
* it has no shape and there are as many values as centroids, or
* the shape is `(nx, ny)`, its product is the number of centroids, and there is one value per centroid
  or one per cell, or
* the shape is `(nx, ny, nz)`, its product is the number of centroids and of values, and the centroids
  are in space. -/
theorem C56_vtk_iff [Zero K] (g : Option (List ℕ)) (name : String)
    (field : NDArray F) (centroids : NDArray K) (m n d : ℕ) (hd : d = 2 ∨ d = 3)
    (hf : field.shape = [m]) (hc : centroids.shape = [n, d]) :
    (∃ s, ((Writer.fresh .vtk g).write name field centroids).2 = .ok s) ↔
      (g = none ∧ m = n) ∨
      (∃ nx ny, g = some [nx, ny] ∧ nx * ny = n ∧ (m = n ∨ m = cellsAlong nx * cellsAlong ny)) ∨
      ∃ nx ny nz, g = some [nx, ny, nz] ∧ d = 3 ∧ nx * ny * nz = n ∧ m = n := by
  have hd0 : 0 < d := by omega
  rcases g with - | l
  · rw [fresh_write _ _ _ _ _ hc]
    dsimp only
    have hs : field.ravelC.shape = [m] := by simp [NDArray.ravelC, NDArray.ofFn1, NDArray.size, hf]
    rcases hd with rfl | rfl
    · simp only [writeVtk, appendZeroColumn, hc, if_true, attach, hs, List.headD_cons]
      by_cases h : m = n <;> simp [h]
    · by_cases h : m = n <;> simp [writeVtk, attach, hs, hc, h]
  by_cases hbad : (l.length ≠ 2 ∧ l.length ≠ 3) ∨ l.prod ≠ n
  · have := C56_vtk l name field centroids n d hd hc hbad
    rw [this]
    simp only [reduceCtorEq, exists_false, false_iff, not_or, not_exists, Option.some.injEq]
    refine ⟨by simp, ?_, ?_⟩
    · rintro nx ny ⟨rfl, h, -⟩
      simp [h] at hbad
    · rintro nx ny nz ⟨rfl, -, h, -⟩
      simp [← Nat.mul_assoc, h] at hbad
  · push Not at hbad
    obtain ⟨hlen, hp⟩ := hbad
    rw [fresh_write _ _ _ _ _ hc]
    dsimp only
    match l, hlen, hp with
    | [], h, _ => simp at h
    | [_], h, _ => simp at h
    | _ :: _ :: _ :: _ :: _, h, _ => simp at h
    | [nx, ny], _, hp =>
      have hp' : nx * ny = n := by simpa using hp
      have hp3 : ([nx, ny, 1] : List ℕ).prod = n := by simpa using hp
      obtain ⟨c, hc1, hc2, -⟩ := reshapeF_coords centroids hc hp3
      have hx := lastCol_ok c hc2 (show 0 < d by omega)
      have hy := lastCol_ok c hc2 (show 1 < d by omega)
      simp only [List.cons_append, List.nil_append] at hc1
      have hs : field.ravelF.shape = [m] := by simp [NDArray.ravelF, NDArray.ofFn1, NDArray.size, hf]
      simp only [writeVtk, hc1, hx, hy, attach, hs, NDArray.size, hp3, List.headD_cons,
        structuredCells_two]
      by_cases h1 : m = n
      · simp [h1, hp']
      · by_cases h2 : m = cellsAlong nx * cellsAlong ny
        · rw [if_neg h1, if_pos h2]
          simp [h2, hp']
        · simp [h1, h2]
    | [nx, ny, nz], _, hp =>
      have hp' : nx * ny * nz = n := by simpa [Nat.mul_assoc] using hp
      obtain ⟨c, hc1, hc2, -⟩ := reshapeC_coords centroids hc hp
      have hx := lastCol_ok c hc2 (show 0 < d by omega)
      have hy := lastCol_ok c hc2 (show 1 < d by omega)
      simp only [List.cons_append, List.nil_append] at hc1
      rcases hd with rfl | rfl
      · have hz : lastCol c 2 = .error .indexError := by simp [lastCol, hc2]
        simp [writeVtk, hc1, hx, hy, hz]
      · have hz := lastCol_ok c hc2 (show 2 < 3 by omega)
        by_cases h1 : m = n
        · subst h1
          obtain ⟨s, h, -⟩ := writeVtk_three nx ny nz name field centroids m hf hc hp'
          simp [h, hp']
        · have hr : field.reshapeC [nx, ny, nz] = .error .valueError := by
            have : ¬ m = nx * (ny * nz) := by rw [← Nat.mul_assoc, hp']; exact h1
            simp [NDArray.reshapeC, hf, this]
          simp [writeVtk, hc1, hx, hy, hz, hr, h1]

/-! ## C55 -/

/-- **C55** (exactly).  For distinct values at distinct locations, a new VTK writer writes a file with
the records of the groups if and only if it has no shape, or the shape is `(nx, ny)` with the right
product and all heights (if there are any) are zero, or the shape is `(nx, ny, nz)` with the right
product, the particles are in space, and `nx = 1` or `ny = 1`. -/
theorem C55_says_iff [Zero K] (g : Option (List ℕ)) (name : String)
    (field : NDArray F) (centroids : NDArray K) (n d : ℕ) (hn0 : 0 < n) (hd : d = 2 ∨ d = 3)
    (hf : field.shape = [n]) (hc : centroids.shape = [n, d])
    (hdf : ∀ i < n, ∀ j < n, field.get [i] = field.get [j] → i = j)
    (hdc : ∀ i < n, ∀ j < n, (∀ c < d, centroids.get [i, c] = centroids.get [j, c]) → i = j) :
    (∃ s, ((Writer.fresh .vtk g).write name field centroids).2 = .ok s ∧
        s.Says (spaceRecords n d field centroids)) ↔
      g = none ∨
      (∃ nx ny, g = some [nx, ny] ∧ nx * ny = n ∧ (d = 3 → ∀ i < n, centroids.get [i, 2] = 0)) ∨
      ∃ nx ny nz, g = some [nx, ny, nz] ∧ d = 3 ∧ nx * ny * nz = n ∧ (nx = 1 ∨ ny = 1) := by
  constructor
  · rintro ⟨s, hs, hsays⟩
    rcases (C56_vtk_iff g name field centroids n n d hd hf hc).1 ⟨s, hs⟩ with
      ⟨h, -⟩ | ⟨nx, ny, rfl, h, -⟩ | ⟨nx, ny, nz, rfl, rfl, h, -⟩
    · exact .inl h
    · refine .inr (.inl ⟨nx, ny, rfl, h, ?_⟩)
      rintro rfl i hi
      by_contra hz
      obtain ⟨s', h1, -, h3⟩ := C55_flattened_fails nx ny name field centroids n hf hc h i hi hz
      rw [hs] at h1
      exact h3 (Except.ok.inj h1 ▸ hsays)
    · refine .inr (.inr ⟨nx, ny, nz, rfl, rfl, h, ?_⟩)
      by_contra hz
      push Not at hz
      have h0 : nx ≠ 0 ∧ ny ≠ 0 ∧ nz ≠ 0 := by
        refine ⟨?_, ?_, ?_⟩ <;> rintro rfl <;> simp at h <;> omega
      obtain ⟨s', h1, -, h3⟩ := C55_three_dim_fails nx ny nz (by omega) (by omega) (by omega) name
        field centroids n hf hc h hdf hdc
      rw [hs] at h1
      exact h3 (Except.ok.inj h1 ▸ hsays)
  · rintro (rfl | ⟨nx, ny, rfl, h, hz⟩ | ⟨nx, ny, nz, rfl, rfl, h, hz⟩)
    · exact C55_unstructured name field centroids n d hd hf hc
    · rcases hd with rfl | rfl
      · exact C55_two_dim nx ny name field centroids n hf hc h
      · obtain ⟨s, h1, h2⟩ := writeVtk_two nx ny name field centroids n 3 (.inr rfl) hf hc h
        refine ⟨s, by rw [fresh_write _ _ _ _ _ hc]; exact h1, _, h2, ?_⟩
        have : spaceRecords n 3 field centroids = (List.range n).map fun i =>
            (field.get [i], [centroids.get [i, 0], centroids.get [i, 1], 0]) := by
          simp only [spaceRecords, groupRecords, groupRecord, List.map_map, List.map_inj_left,
            List.mem_range, Function.comp]
          intro i hi
          simp [List.range_succ, hz rfl i hi]
        rw [this]
    · exact C55_three_dim_partial nx ny nz (by omega) name field centroids n hf hc h

/-! ## C57 -/

theorem Writer.writes_first [Zero K] (w : Writer) (e : ℕ) (hw : w.dim = some e)
    (calls : List (String × NDArray F × NDArray K)) : w.writes calls = w := by
  induction calls with
  | nil => rfl
  | cons c cs ih =>
    have : (w.write c.1 c.2.1 c.2.2).1 = w := by
      obtain ⟨k, g, dm⟩ := w
      dsimp only at hw
      subst hw
      simp [Writer.write]
    simp only [Writer.writes, this, ih]

/-- **C57** (exactly).  If a new writer writes a field, a writer that has been used before writes the
same file if and only if the first field it was given had the same dimension; what came after the
first field, and whether the calls succeeded, does not matter. -/
theorem C57_same_iff [Zero K] (kind : WriterKind) (g : Option (List ℕ)) (d e n k : ℕ) (hn : 0 < n)
    (hd : d = 2 ∨ d = 3) (he : e = 2 ∨ e = 3)
    (first : String × NDArray F × NDArray K) (hfirst : first.2.2.shape = [k, e])
    (later : List (String × NDArray F × NDArray K))
    (name : String) (field : NDArray F) (centroids : NDArray K)
    (hf : field.shape = [n]) (hc : centroids.shape = [n, d]) (s : Saved K F)
    (hs : ((Writer.fresh kind g).write name field centroids).2 = .ok s) :
    (((Writer.fresh kind g).writes (first :: later)).write name field centroids).2 = .ok s ↔
      e = d := by
  have h0 : (Writer.fresh kind g).writes (first :: later) = ⟨kind, g, some e⟩ := by
    simp only [Writer.writes]
    rw [fresh_write _ _ _ _ _ hfirst]
    exact Writer.writes_first _ e rfl later
  rw [h0]
  constructor
  swap
  · rintro rfl
    rw [fresh_write _ _ _ _ _ hc] at hs
    cases kind <;> exact hs
  intro hw
  by_contra hne
  cases kind with
  | mat =>
    rw [fresh_write _ _ _ _ _ hc] at hs
    change writeMat g d name field centroids = .ok s at hs
    change writeMat g e name field centroids = .ok s at hw
    have flat : ∀ g : Option (List ℕ), g = none ∨ g = some [] →
        writeMat g d name field centroids = .ok s → writeMat g e name field centroids = .ok s →
          False := by
      intro g hg hs hw
      rcases hg with rfl | rfl <;> rcases hd with rfl | rfl <;> rcases he with rfl | rfl <;>
        simp [writeMat, column, hc, optionalZ] at hs hw hne <;> simp [← hs] at hw
    rcases g with - | l
    · exact flat none (.inl rfl) hs hw
    · by_cases hl : l = []
      · subst hl
        exact flat _ (.inr rfl) hs hw
      · obtain ⟨-, h1, h2⟩ := (writeMat_iff l hl name field centroids n n d e he hf hc).1 ⟨s, hw⟩
        rw [h1] at h2
        exact hne (Nat.eq_of_mul_eq_mul_left hn h2)
  | vtk =>
    have hmul : ∀ a, a = n → ¬ n * d = a * e := by
      rintro a rfl h
      exact hne (Nat.eq_of_mul_eq_mul_left hn h).symm
    change writeVtk g e name field centroids = .ok s at hw
    rcases (C56_vtk_iff g name field centroids n n d hd hf hc).1 ⟨s, hs⟩ with
      ⟨rfl, -⟩ | ⟨nx, ny, rfl, h, -⟩ | ⟨nx, ny, nz, rfl, rfl, h, -⟩
    · rcases hd with rfl | rfl <;> rcases he with rfl | rfl <;>
        simp [writeVtk, appendZeroColumn, hc] at hw hne
    · have hr : centroids.reshapeF [nx, ny, 1, e] = .error .valueError := by
        have := hmul _ h
        rw [Nat.mul_assoc] at this
        simp [NDArray.reshapeF, hc, this]
      simp [writeVtk, hr] at hw
    · have hr : centroids.reshapeC [nx, ny, nz, e] = .error .valueError := by
        have := hmul _ h
        rw [Nat.mul_assoc, Nat.mul_assoc] at this
        simp [NDArray.reshapeC, hc, this]
      simp [writeVtk, hr] at hw

/-! ## C71 -/

theorem vtk_two_value [Zero K] (nx ny : ℕ) (name : String) (field : NDArray F)
    (centroids : NDArray K) (n d : ℕ) (hd : d = 2 ∨ d = 3) (hf : field.shape = [n])
    (hc : centroids.shape = [n, d]) (hn : nx * ny = n) :
    ∃ t, ((Writer.fresh .vtk (some [nx, ny])).write name field centroids).2 = .ok t ∧
      ∀ idx, ValidIdx [nx, ny, 1] idx →
        t.nodeValue idx = some (field.get [encF [nx, ny, 1] idx]) := by
  have hp : ([nx, ny, 1] : List ℕ).prod = n := by simpa using hn
  obtain ⟨c, hc1, hc2, -⟩ := reshapeF_coords centroids hc hp
  have hx' := lastCol_ok c hc2 (show 0 < d by omega)
  have hy' := lastCol_ok c hc2 (show 1 < d by omega)
  simp only [List.cons_append, List.nil_append] at hc1
  have hlen : field.ravelF.shape = [n] := by
    simp [NDArray.ravelF, NDArray.ofFn1, NDArray.size, hf]
  refine ⟨.vts (name ++ ".vts") [nx, ny, 1]
      (structuredPoints ⟨[nx, ny, 1], fun idx => c.get (idx ++ [0])⟩
        ⟨[nx, ny, 1], fun idx => c.get (idx ++ [1])⟩ ⟨[nx, ny, 1], fun _ => 0⟩)
      Assoc.points field.ravelF, ?_, ?_⟩
  · rw [fresh_write _ _ _ _ _ hc]
    simp only [writeVtk, hc1, hx', hy', attach, hlen, NDArray.size, hp, List.headD_cons, if_true]
  · intro idx hi
    have hlt : encF [nx, ny, 1] idx < n := by rw [← hp]; exact encF_lt hi
    simp only [Saved.nodeValue, hi, if_true]
    simp [NDArray.ravelF, NDArray.ofFn1, hf, decF, Nat.mod_eq_of_lt hlt]

/-- **C71** (exactly, shapes of length two).  For a field of distinct values, the two formats agree on
every node if and only if the grid has at most one node along one of the axes. -/
theorem C71_agree_iff_2d [Zero K] (nx ny : ℕ) (name : String) (field : NDArray F)
    (centroids : NDArray K) (n d : ℕ) (hd : d = 2 ∨ d = 3)
    (hf : field.shape = [n]) (hc : centroids.shape = [n, d]) (hn : nx * ny = n)
    (hdf : ∀ i < n, ∀ j < n, field.get [i] = field.get [j] → i = j) :
    ∃ s t, ((Writer.fresh .mat (some [nx, ny])).write name field centroids).2 = .ok s ∧
      ((Writer.fresh .vtk (some [nx, ny])).write name field centroids).2 = .ok t ∧
      ((∀ idx, ValidIdx [nx, ny, 1] idx → s.nodeValue idx = t.nodeValue idx) ↔
        nx ≤ 1 ∨ ny ≤ 1) := by
  obtain ⟨s, h1, -, h3⟩ := C54_structured (.two nx ny) name field centroids n d hd hf hc
    (by simpa using hn)
  obtain ⟨t, g1, g2⟩ := vtk_two_value nx ny name field centroids n d hd hf hc hn
  have hp : ([nx, ny, 1] : List ℕ).prod = n := by simpa using hn
  refine ⟨s, t, h1, g1, ?_⟩
  constructor
  · intro h
    by_contra hno
    push Not at hno
    have hv : ValidIdx [nx, ny, 1] [0, 1, 0] := by simp; omega
    have := h _ hv
    rw [h3 _ hv, g2 _ hv] at this
    have := hdf _ (by rw [← hp]; exact encC_lt hv) _ (by rw [← hp]; exact encF_lt hv)
      (Option.some.inj this)
    simp [encC, encF] at this
    omega
  · intro h idx hi
    rw [h3 _ hi, g2 _ hi]
    congr 3
    match idx, hi with
    | [i, j, k], hi =>
      simp at hi
      rcases h with h | h
      · have : nx = 1 := by omega
        subst this
        obtain ⟨rfl, -, rfl⟩ : i = 0 ∧ j < ny ∧ k = 0 := by omega
        simp [encC, encF]
      · have : ny = 1 := by omega
        subst this
        obtain ⟨-, rfl, rfl⟩ : i < nx ∧ j = 0 ∧ k = 0 := by omega
        simp [encC, encF]

/-- **C71** (exactly, shapes of length three).  The same with the first two axes: nodes along the
third axis do not matter. -/
theorem C71_agree_iff_3d [Zero K] (nx ny nz : ℕ) (hz : 0 < nz) (name : String) (field : NDArray F)
    (centroids : NDArray K) (n : ℕ)
    (hf : field.shape = [n]) (hc : centroids.shape = [n, 3]) (hn : nx * ny * nz = n)
    (hdf : ∀ i < n, ∀ j < n, field.get [i] = field.get [j] → i = j) :
    ∃ s t, ((Writer.fresh .mat (some [nx, ny, nz])).write name field centroids).2 = .ok s ∧
      ((Writer.fresh .vtk (some [nx, ny, nz])).write name field centroids).2 = .ok t ∧
      ((∀ idx, ValidIdx [nx, ny, nz] idx → s.nodeValue idx = t.nodeValue idx) ↔
        nx ≤ 1 ∨ ny ≤ 1) := by
  have hp : ([nx, ny, nz] : List ℕ).prod = n := by simp [← hn, Nat.mul_assoc]
  obtain ⟨s, h1, -, h3⟩ := C54_structured (.three nx ny nz) name field centroids n 3 (.inr rfl) hf hc
    hp
  obtain ⟨c, hc1, hc2, -⟩ := reshapeC_coords centroids hc hp
  obtain ⟨f, hf1, hf2, hf3⟩ := reshapeC_field field hf hp
  have hx' := lastCol_ok c hc2 (show 0 < 3 by omega)
  have hy' := lastCol_ok c hc2 (show 1 < 3 by omega)
  have hz' := lastCol_ok c hc2 (show 2 < 3 by omega)
  simp only [List.cons_append, List.nil_append] at hc1
  have hlen : (f.transpose [1, 0, 2]).ravelF.shape = [n] := by
    simp [NDArray.ravelF, NDArray.ofFn1, NDArray.size, NDArray.transpose, hf2, ← hn]
    ring
  have hval : ∀ p, (f.transpose [1, 0, 2]).ravelF.get [p] =
      field.get [vtkValueGroup nx ny nz p] := by
    intro p
    have : decF [ny, nx, nz] p = [p % ny, p / ny % nx, p / ny / nx % nz] := by simp [decF]
    have h2 : (f.transpose [1, 0, 2]).shape = [ny, nx, nz] := by
      simp [NDArray.transpose, hf2]
    show (f.transpose [1, 0, 2]).get (decF (f.transpose [1, 0, 2]).shape p) = _
    rw [h2, this]
    simp [NDArray.transpose, hf2, List.range_succ, vtkValueGroup, hf3, List.idxOf,
      List.findIdx_cons]
  have g2 : ∀ pts : NDArray K, ∀ idx, ValidIdx [nx, ny, nz] idx →
      (Saved.vts (name ++ ".vts") [nx, ny, nz] pts Assoc.points
        (f.transpose [1, 0, 2]).ravelF).nodeValue idx =
        some (field.get [vtkValueGroup nx ny nz (encF [nx, ny, nz] idx)]) := by
    intro pts idx hi
    simp only [Saved.nodeValue, hi, if_true, hval]
  refine ⟨s, .vts (name ++ ".vts") [nx, ny, nz]
    (structuredPoints ⟨[nx, ny, nz], fun idx => c.get (idx ++ [0])⟩
      ⟨[nx, ny, nz], fun idx => c.get (idx ++ [1])⟩
      ⟨[nx, ny, nz], fun idx => c.get (idx ++ [2])⟩) .points
      (f.transpose [1, 0, 2]).ravelF, h1, ?_, ?_⟩
  · rw [fresh_write _ _ _ _ _ hc]
    simp only [writeVtk, hc1, hx', hy', hz', hf1, attach, hlen, NDArray.size, hp, List.headD_cons,
      if_true]
  constructor
  · intro h
    by_contra hno
    push Not at hno
    have hv : ValidIdx [nx, ny, nz] [1, 0, 0] := by simp; omega
    have := h _ hv
    rw [h3 _ hv, g2 _ _ hv] at this
    have hvg : vtkValueGroup nx ny nz 1 = nz := by
      have e1 : 1 % ny = 1 := Nat.mod_eq_of_lt (by omega)
      have e2 : 1 / ny = 0 := Nat.div_eq_of_lt (by omega)
      simp [vtkValueGroup, encC, e1, e2]
    have e1 : encF [nx, ny, nz] [1, 0, 0] = 1 := by simp [encF]
    have e2 : encC [nx, ny, nz] [1, 0, 0] = ny * nz := by simp [encC]
    rw [e1, hvg, e2] at this
    have hlt : ny * nz < n := by
      rw [← hn, Nat.mul_assoc]
      have : 0 < ny * nz := Nat.mul_pos (by omega) hz
      nlinarith
    have hle : 2 * nz ≤ ny * nz := Nat.mul_le_mul_right _ (by omega)
    have := hdf _ hlt _ (by omega) (Option.some.inj this)
    omega
  · intro h idx hi
    have hlt : encF [nx, ny, nz] idx < nx * ny * nz := by
      rw [hn, ← hp]; exact encF_lt hi
    rw [h3 _ hi, g2 _ _ hi, vtkValueGroup_eq nx ny nz _ h hlt, vtkPointGroup, decF_encF hi]

/-! ## Concrete cases -/

example : ∃ s, ((Writer.fresh .mat none).write "a" (exWField 7) (exWCentroids 6 2)).2 = .ok s :=
  (C56_mat_iff none "a" _ _ 7 6 2 (.inl rfl) rfl rfl).2 (.inl rfl)

example : ∃ s, ((Writer.fresh .mat (some [2, 3])).write "a" (exWField 6) (exWCentroids 6 2)).2 =
    .ok s :=
  (C56_mat_iff _ "a" _ _ 6 6 2 (.inl rfl) rfl rfl).2 (.inr (.inr ⟨[2, 3], rfl, by decide⟩))

example : ∃ s, ((Writer.fresh .vtk (some [2, 3])).write "a" (exWField 2) (exWCentroids 6 2)).2 =
    .ok s :=
  (C56_vtk_iff _ "a" _ _ 2 6 2 (.inl rfl) rfl rfl).2 (.inr (.inl ⟨2, 3, rfl, by decide⟩))

example : ¬ ∃ s, ((Writer.fresh .vtk (some [2, 3])).write "a" (exWField 6) (exWCentroids 6 3)).2 =
    .ok s ∧ s.Says (spaceRecords 6 3 (exWField 6) (exWCentroids 6 3)) := by
  rw [C55_says_iff _ "a" _ _ 6 3 (by decide) (.inr rfl) rfl rfl
    (by intro i _ j _ h; simpa [exWField] using h)
    (by intro i _ j _ h; have := h 0 (by decide); simp [exWCentroids] at this; omega)]
  simp only [reduceCtorEq, false_or, not_or, not_exists, Option.some.injEq]
  refine ⟨fun nx ny h => ?_, fun nx ny nz h => by simp at h⟩
  have := h.2.2 trivial 1 (by decide)
  simp [exWCentroids] at this

example (s : Saved ℤ ℤ)
    (hs : ((Writer.fresh .mat none).write "c" (exWField 6) (exWCentroids 6 3)).2 = .ok s) :
    ¬ (((Writer.fresh .mat none).writes [("a", exWField 6, exWCentroids 6 2),
      ("b", exWField 6, exWCentroids 6 3)]).write "c" (exWField 6) (exWCentroids 6 3)).2 = .ok s := by
  rw [C57_same_iff .mat none 3 2 6 6 (by decide) (.inr rfl) (.inl rfl) _ rfl _ "c" _ _ rfl rfl s hs]
  decide

example : ∃ s t, ((Writer.fresh .mat (some [1, 4])).write "a" (exWField 4) (exWCentroids 4 2)).2 =
      .ok s ∧
      ((Writer.fresh .vtk (some [1, 4])).write "a" (exWField 4) (exWCentroids 4 2)).2 = .ok t ∧
      ∀ idx, ValidIdx [1, 4, 1] idx → s.nodeValue idx = t.nodeValue idx := by
  obtain ⟨s, t, h1, h2, h3⟩ := C71_agree_iff_2d 1 4 "a" (exWField 4) (exWCentroids 4 2) 4 2 (.inl rfl)
    rfl rfl rfl (by intro i _ j _ h; simpa [exWField] using h)
  exact ⟨s, t, h1, h2, h3.2 (by decide)⟩

example : ∃ s t, ((Writer.fresh .mat (some [2, 2, 2])).write "a" (exWField 8)
      (exWCentroids 8 3)).2 = .ok s ∧
      ((Writer.fresh .vtk (some [2, 2, 2])).write "a" (exWField 8) (exWCentroids 8 3)).2 = .ok t ∧
      ¬ ∀ idx, ValidIdx [2, 2, 2] idx → s.nodeValue idx = t.nodeValue idx := by
  obtain ⟨s, t, h1, h2, h3⟩ := C71_agree_iff_3d 2 2 2 (by decide) "a" (exWField 8) (exWCentroids 8 3) 8
    rfl rfl rfl (by intro i _ j _ h; simpa [exWField] using h)
  exact ⟨s, t, h1, h2, fun h => absurd (h3.1 h) (by decide)⟩

end Verif
