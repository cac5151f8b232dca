import Verif.Lemmas.Writers
import Mathlib.Data.List.Nodup

/-!
# C54–C57, C71: output files

Throughout, `field` holds one value per group (`shape = [n]`) and `centroids` one row per group
(`shape = [n, d]`, `d` = 2 or 3), which is what `_compute_ftle` passes.
-/

namespace Verif

variable {K F : Type}

theorem fresh_write [Zero K] (kind : WriterKind) (g : Option (List ℕ)) (name : String)
    (field : NDArray F) (centroids : NDArray K) {n d : ℕ} (hc : centroids.shape = [n, d]) :
    (Writer.fresh kind g).write name field centroids =
      (⟨kind, g, some d⟩,
        match kind with
        | .mat => writeMat g d name field centroids
        | .vtk => writeVtk g d name field centroids) := by
  cases kind <;> simp [Writer.write, Writer.fresh, hc]

/-! ## C54 -/

/-- **C54** (structured).  The `.mat` file says exactly the records of the groups: value and
coordinates at one index belong to one group and every group is stored once.  More precisely
the entry `(i, j, k)` is the group numbered `(i·ny + j)·nz + k`. -/
theorem C54_structured [Zero K] {g sh : List ℕ} (hg : GridShape g sh) (name : String)
    (field : NDArray F) (centroids : NDArray K) (n d : ℕ) (hd : d = 2 ∨ d = 3)
    (hf : field.shape = [n]) (hc : centroids.shape = [n, d]) (hn : g.prod = n) :
    ∃ s, ((Writer.fresh .mat (some g)).write name field centroids).2 = .ok s ∧
      s.Says (groupRecords n d field centroids) ∧
      ∀ idx, ValidIdx sh idx → s.nodeValue idx = some (field.get [encC sh idx]) := by
  have hp : sh.prod = n := by cases hg <;> simpa using hn
  obtain ⟨f, x, y, z, h1, h2, h3, h4, h5, h6⟩ :=
    writeMat_structured hg name field centroids n d hd hf hc hp
  refine ⟨_, by rw [fresh_write _ _ _ _ _ hc]; exact h1,
    ⟨_, records_of_entries hp h2 h3 h4 h5 h6, List.Perm.refl _⟩, ?_⟩
  intro idx hi
  have := congrArg Prod.fst (h6 idx hi)
  simp only [groupRecord] at this
  simp only [Saved.nodeValue, h2, hi, if_true, this]

/-- **C54** (flat).  Without a grid shape (or with an empty one) the arrays are flat and entry `i`
of each array is group `i`. -/
theorem C54_flat [Zero K] (g : Option (List ℕ)) (hg : g = none ∨ g = some []) (name : String)
    (field : NDArray F) (centroids : NDArray K) (n d : ℕ) (hd : d = 2 ∨ d = 3)
    (hf : field.shape = [n]) (hc : centroids.shape = [n, d]) :
    ∃ s, ((Writer.fresh .mat g).write name field centroids).2 = .ok s ∧
      s.records = some (groupRecords n d field centroids) ∧
      s.Says (groupRecords n d field centroids) := by
  obtain ⟨s, h1, h2⟩ := writeMat_flat g hg name field centroids n d hd hf hc
  exact ⟨s, by rw [fresh_write _ _ _ _ _ hc]; exact h1, h2, _, h2, List.Perm.refl _⟩

/-- **C54** (rejection).  A shape of length two or three whose product is not the number of
groups raises `ValueError`. -/
theorem C54_mismatch [Zero K] {g sh : List ℕ} (hg : GridShape g sh) (name : String)
    (field : NDArray F) (centroids : NDArray K) (n d : ℕ)
    (hf : field.shape = [n]) (hc : centroids.shape = [n, d]) (hn : g.prod ≠ n) :
    ((Writer.fresh .mat (some g)).write name field centroids).2 = .error .valueError := by
  have hp : ¬ n = sh.prod := by cases hg <;> simpa [eq_comm] using hn
  have h : field.reshapeC sh = .error .valueError := by simp [NDArray.reshapeC, hf, hp]
  rw [fresh_write _ _ _ _ _ hc]
  cases hg <;> simp only [writeMat, h]

/-! ## C55 -/

/-- **C55** (unstructured).  The `.vtp` file says exactly the records of the groups, planar groups
being placed at height zero. -/
theorem C55_unstructured [Zero K] (name : String)
    (field : NDArray F) (centroids : NDArray K) (n d : ℕ) (hd : d = 2 ∨ d = 3)
    (hf : field.shape = [n]) (hc : centroids.shape = [n, d]) :
    ∃ s, ((Writer.fresh .vtk none).write name field centroids).2 = .ok s ∧
      s.Says (spaceRecords n d field centroids) := by
  obtain ⟨s, h1, h2⟩ := writeVtk_flat name field centroids n d hd hf hc
  exact ⟨s, by rw [fresh_write _ _ _ _ _ hc]; exact h1, _, h2, List.Perm.refl _⟩

/-- **C55** (structured, shape of length two, planar particles). -/
theorem C55_two_dim [Zero K] (nx ny : ℕ) (name : String)
    (field : NDArray F) (centroids : NDArray K) (n : ℕ)
    (hf : field.shape = [n]) (hc : centroids.shape = [n, 2]) (hn : nx * ny = n) :
    ∃ s, ((Writer.fresh .vtk (some [nx, ny])).write name field centroids).2 = .ok s ∧
      s.Says (spaceRecords n 2 field centroids) := by
  obtain ⟨s, h1, h2⟩ := writeVtk_two nx ny name field centroids n 2 (.inl rfl) hf hc hn
  refine ⟨s, by rw [fresh_write _ _ _ _ _ hc]; exact h1, _, h2, ?_⟩
  simp [spaceRecords, groupRecords, Function.comp_def, groupRecord, List.range_succ]

theorem vtkValueGroup_eq (nx ny nz p : ℕ) (h : nx ≤ 1 ∨ ny ≤ 1) (hp : p < nx * ny * nz) :
    vtkValueGroup nx ny nz p = vtkPointGroup nx ny nz p := by
  have h0 : 0 < nx ∧ 0 < ny := by
    constructor <;> rcases Nat.eq_zero_or_pos nx with rfl | h1 <;>
      rcases Nat.eq_zero_or_pos ny with rfl | h2 <;> simp_all
  have hc : nx = 1 ∨ ny = 1 := by omega
  rcases hc with rfl | rfl <;>
    simp [vtkValueGroup, vtkPointGroup, decF, encC, Nat.mod_one]

/-- **C55** (structured, shape of length three).  The association is right if the grid has at most
one node along the first or along the second axis.

Partial: for other grids it is wrong, see `C55_three_dim_fails`. -/
theorem C55_three_dim_partial [Zero K] (nx ny nz : ℕ) (h : nx ≤ 1 ∨ ny ≤ 1) (name : String)
    (field : NDArray F) (centroids : NDArray K) (n : ℕ)
    (hf : field.shape = [n]) (hc : centroids.shape = [n, 3]) (hn : nx * ny * nz = n) :
    ∃ s, ((Writer.fresh .vtk (some [nx, ny, nz])).write name field centroids).2 = .ok s ∧
      s.Says (spaceRecords n 3 field centroids) := by
  obtain ⟨s, h1, h2⟩ := writeVtk_three nx ny nz name field centroids n hf hc hn
  refine ⟨s, by rw [fresh_write _ _ _ _ _ hc]; exact h1, _, h2, ?_⟩
  have hmap : ((List.range n).map fun p => (field.get [vtkValueGroup nx ny nz p],
      (List.range 3).map fun c => centroids.get [vtkPointGroup nx ny nz p, c])) =
      ((List.range n).map (vtkPointGroup nx ny nz)).map (groupRecord field centroids 3) := by
    simp only [List.map_map, List.map_inj_left, List.mem_range, Function.comp, groupRecord]
    intro p hp
    rw [vtkValueGroup_eq nx ny nz p h (by omega)]
  have hspace : spaceRecords n 3 field centroids = (List.range n).map
      (groupRecord field centroids 3) := by
    simp [spaceRecords, groupRecords]
  rw [hmap, hspace]
  refine List.Perm.map _ ?_
  have hp : ([nx, ny, nz] : List ℕ).prod = n := by simp [← hn, Nat.mul_assoc]
  rw [List.perm_ext_iff_of_nodup _ List.nodup_range]
  · intro q
    simp only [List.mem_map, List.mem_range]
    constructor
    · rintro ⟨p, hpn, rfl⟩
      rw [← hp] at hpn ⊢
      exact encC_lt (validIdx_decF hpn)
    · intro hq
      rw [← hp] at hq
      refine ⟨encF [nx, ny, nz] (decC [nx, ny, nz] q), ?_, ?_⟩
      · rw [← hp]; exact encF_lt (validIdx_decC hq)
      · simp only [vtkPointGroup]
        rw [decF_encF (validIdx_decC hq), encC_decC hq]
  · refine (List.nodup_map_iff_inj_on List.nodup_range).2 ?_
    intro p hpn q hqn he
    simp only [List.mem_range] at hpn hqn
    rw [← hp] at hpn hqn
    simp only [vtkPointGroup] at he
    have := congrArg (decC [nx, ny, nz]) he
    rw [decC_encC (validIdx_decF hpn), decC_encC (validIdx_decF hqn)] at this
    have := congrArg (encF [nx, ny, nz]) this
    rwa [encF_decF hpn, encF_decF hqn] at this

/-- **C55 is false for three-dimensional structured output.**  On every grid with at least two
nodes along both of the first two axes, every field of distinct values at distinct locations is
written with values attached to wrong points (no error is raised). -/
theorem C55_three_dim_fails [Zero K] (nx ny nz : ℕ) (hx : 2 ≤ nx) (hy : 2 ≤ ny) (hz : 1 ≤ nz)
    (name : String) (field : NDArray F) (centroids : NDArray K) (n : ℕ)
    (hf : field.shape = [n]) (hc : centroids.shape = [n, 3]) (hn : nx * ny * nz = n)
    (hdf : ∀ i < n, ∀ j < n, field.get [i] = field.get [j] → i = j)
    (hdc : ∀ i < n, ∀ j < n, (∀ c < 3, centroids.get [i, c] = centroids.get [j, c]) → i = j) :
    ∃ s, ((Writer.fresh .vtk (some [nx, ny, nz])).write name field centroids).2 = .ok s ∧
      s.records.isSome ∧ ¬ s.Says (spaceRecords n 3 field centroids) := by
  obtain ⟨s, h1, h2⟩ := writeVtk_three nx ny nz name field centroids n hf hc hn
  refine ⟨s, by rw [fresh_write _ _ _ _ _ hc]; exact h1, by simp [h2], ?_⟩
  rintro ⟨l, hl, hperm⟩
  rw [h2, Option.some.injEq] at hl
  subst hl
  have hn4 : 2 * nz ≤ ny * nz := Nat.mul_le_mul_right _ hy
  have hn5 : 2 * (ny * nz) ≤ n := by
    rw [← hn, Nat.mul_assoc]; exact Nat.mul_le_mul_right _ hx
  have hv : vtkValueGroup nx ny nz 1 = nz := by
    have e1 : 1 % ny = 1 := Nat.mod_eq_of_lt (by omega)
    have e2 : 1 / ny = 0 := Nat.div_eq_of_lt (by omega)
    simp [vtkValueGroup, encC, e1, e2]
  have hpg : vtkPointGroup nx ny nz 1 = ny * nz := by
    have e1 : 1 % nx = 1 := Nat.mod_eq_of_lt (by omega)
    have e2 : 1 / nx = 0 := Nat.div_eq_of_lt (by omega)
    simp [vtkPointGroup, encC, decF, e1, e2]
  have hmem : (field.get [nz], (List.range 3).map fun c => centroids.get [ny * nz, c]) ∈
      spaceRecords n 3 field centroids := by
    refine hperm.subset (List.mem_map.2 ⟨1, List.mem_range.2 (by omega), ?_⟩)
    rw [hv, hpg]
  simp only [spaceRecords, groupRecords, groupRecord, List.map_map, List.mem_map,
    List.mem_range, Function.comp, Nat.sub_self, List.replicate_zero, List.append_nil,
    Prod.mk.injEq, List.map_inj_left] at hmem
  obtain ⟨i, hi, hfi, hci⟩ := hmem
  have e1 := hdf i hi nz (by omega) hfi
  have e2 := hdc i hi (ny * nz) (by omega) hci
  omega

/-- **C55 is false for three-dimensional particles written with a shape of length two** (the
command line turns `nx,ny,1` into such a shape): as soon as one centroid has a non-zero third
coordinate, the file does not contain it. -/
theorem C55_flattened_fails [Zero K] (nx ny : ℕ) (name : String)
    (field : NDArray F) (centroids : NDArray K) (n : ℕ)
    (hf : field.shape = [n]) (hc : centroids.shape = [n, 3]) (hn : nx * ny = n)
    (i : ℕ) (hi : i < n) (hz : centroids.get [i, 2] ≠ 0) :
    ∃ s, ((Writer.fresh .vtk (some [nx, ny])).write name field centroids).2 = .ok s ∧
      s.records.isSome ∧ ¬ s.Says (spaceRecords n 3 field centroids) := by
  obtain ⟨s, h1, h2⟩ := writeVtk_two nx ny name field centroids n 3 (.inr rfl) hf hc hn
  refine ⟨s, by rw [fresh_write _ _ _ _ _ hc]; exact h1, by simp [h2], ?_⟩
  rintro ⟨l, hl, hperm⟩
  rw [h2, Option.some.injEq] at hl
  subst hl
  have hmem : (field.get [i], (List.range 3).map fun c => centroids.get [i, c]) ∈
      spaceRecords n 3 field centroids := by
    simp only [spaceRecords, groupRecords, groupRecord, List.map_map, List.mem_map,
      List.mem_range, Function.comp]
    exact ⟨i, hi, by simp⟩
  have := hperm.symm.subset hmem
  simp only [List.mem_map, List.mem_range, Prod.mk.injEq] at this
  obtain ⟨j, hj, _, hcj⟩ := this
  simp [List.range_succ] at hcj
  exact hz hcj.2.2.symm

/-! ## C56 -/

/-- **C56** (VTK).  A shape of length other than two or three, or whose product is not the number
of groups, raises `ValueError`. -/
theorem C56_vtk [Zero K] (g : List ℕ) (name : String)
    (field : NDArray F) (centroids : NDArray K) (n d : ℕ) (hd : d = 2 ∨ d = 3)
    (hc : centroids.shape = [n, d])
    (hg : (g.length ≠ 2 ∧ g.length ≠ 3) ∨ g.prod ≠ n) :
    ((Writer.fresh .vtk (some g)).write name field centroids).2 = .error .valueError := by
  rw [fresh_write _ _ _ _ _ hc]
  show writeVtk (some g) d name field centroids = _
  have hd0 : 0 < d := by omega
  match g, hg with
  | [], _ => rfl
  | [_], _ => rfl
  | _ :: _ :: _ :: _ :: _, _ => rfl
  | [nx, ny], hg =>
    have h2 : ¬ n * d = nx * (ny * d) := by
      have : nx * ny ≠ n := by simpa using hg
      rw [← Nat.mul_assoc]
      intro h
      exact this (Nat.eq_of_mul_eq_mul_right hd0 h).symm
    have h3 : centroids.reshapeF [nx, ny, 1, d] = .error .valueError := by
      simp [NDArray.reshapeF, hc, h2]
    simp only [writeVtk, h3]
  | [nx, ny, nz], hg =>
    have h2 : ¬ n * d = nx * (ny * (nz * d)) := by
      have : nx * (ny * nz) ≠ n := by simpa using hg
      rw [← Nat.mul_assoc ny, ← Nat.mul_assoc]
      intro h
      exact this (Nat.eq_of_mul_eq_mul_right hd0 h).symm
    have h3 : centroids.reshapeC [nx, ny, nz, d] = .error .valueError := by
      simp [NDArray.reshapeC, hc, h2]
    simp only [writeVtk, h3]

/-- **C56** (MATLAB), for every non-empty shape.

Partial: the empty shape is accepted, see `C56_empty_shape_fails`. -/
theorem C56_mat_partial [Zero K] (g : List ℕ) (hne : g ≠ []) (name : String)
    (field : NDArray F) (centroids : NDArray K) (n d : ℕ)
    (hf : field.shape = [n]) (hc : centroids.shape = [n, d])
    (hg : (g.length ≠ 2 ∧ g.length ≠ 3) ∨ g.prod ≠ n) :
    ((Writer.fresh .mat (some g)).write name field centroids).2 = .error .valueError := by
  match g, hne, hg with
  | [_], _, _ => rw [fresh_write _ _ _ _ _ hc]; rfl
  | _ :: _ :: _ :: _ :: _, _, _ => rw [fresh_write _ _ _ _ _ hc]; rfl
  | [nx, ny], _, hg =>
    exact C54_mismatch (.two nx ny) name field centroids n d hf hc (by simpa using hg)
  | [nx, ny, nz], _, hg =>
    exact C54_mismatch (.three nx ny nz) name field centroids n d hf hc (by simpa using hg)

/-- **C56 is false for the empty shape**: the MATLAB writer takes it for "no shape" and writes
the flat file, while the VTK writer raises. -/
theorem C56_empty_shape_fails [Zero K] (name : String)
    (field : NDArray F) (centroids : NDArray K) (n d : ℕ) (hd : d = 2 ∨ d = 3)
    (hf : field.shape = [n]) (hc : centroids.shape = [n, d]) :
    (∃ s, ((Writer.fresh .mat (some [])).write name field centroids).2 = .ok s) ∧
    ((Writer.fresh .vtk (some [])).write name field centroids).2 = .error .valueError := by
  obtain ⟨s, h, -⟩ := C54_flat (some []) (.inr rfl) name field centroids n d hd hf hc
  exact ⟨⟨s, h⟩, C56_vtk [] name field centroids n d hd hc (by simp)⟩

/-- **C56 is false when values and centroids differ in number** (VTK, shape of length two): a
field with one value per cell is accepted and attached to the cells.  The MATLAB writer rejects
the same call. -/
theorem C56_cell_values_fails [Zero K] (nx ny : ℕ) (hx : 2 ≤ nx) (hy : 2 ≤ ny) (name : String)
    (field : NDArray F) (centroids : NDArray K)
    (hf : field.shape = [(nx - 1) * (ny - 1)]) (hc : centroids.shape = [nx * ny, 2]) :
    (∃ pts v, ((Writer.fresh .vtk (some [nx, ny])).write name field centroids).2 =
      .ok (.vts (name ++ ".vts") [nx, ny, 1] pts .cells v)) ∧
    ((Writer.fresh .mat (some [nx, ny])).write name field centroids).2 = .error .valueError := by
  have hlt : (nx - 1) * (ny - 1) < nx * ny :=
    Nat.mul_lt_mul_of_lt_of_le (by omega) (by omega) (by omega)
  constructor
  · have hp : ([nx, ny, 1] : List ℕ).prod = nx * ny := by simp
    obtain ⟨c, hc1, hc2, -⟩ := reshapeF_coords centroids hc hp
    have hx' := lastCol_ok c hc2 (show 0 < 2 by omega)
    have hy' := lastCol_ok c hc2 (show 1 < 2 by omega)
    simp only [List.cons_append, List.nil_append] at hc1
    have hlen : field.ravelF.shape = [(nx - 1) * (ny - 1)] := by
      simp [NDArray.ravelF, NDArray.ofFn1, NDArray.size, hf]
    have hcells : structuredCells [nx, ny, 1] = (nx - 1) * (ny - 1) := by
      have h0 : ¬ (0 ∈ [nx, ny, 1]) := by simp; omega
      have h1 : 1 < nx := by omega
      have h2 : 1 < ny := by omega
      simp [structuredCells, h0, h1, h2]
    rw [fresh_write _ _ _ _ _ hc]
    simp only [writeVtk, hc1, hx', hy', attach, hlen, NDArray.size, hp, List.headD_cons, hcells,
      if_neg hlt.ne, if_true]
    exact ⟨_, _, rfl⟩
  · have h : field.reshapeC [nx, ny, 1] = .error .valueError := by
      simp [NDArray.reshapeC, hf, hlt.ne]
    rw [fresh_write _ _ _ _ _ hc]
    simp only [writeMat, h]

/-! ## C57 -/

/-- A sequence of `write` calls. -/
def Writer.writes [Zero K] (w : Writer) : List (String × NDArray F × NDArray K) → Writer
  | [] => w
  | c :: cs => Writer.writes (w.write c.1 c.2.1 c.2.2).1 cs

theorem Writer.writes_dim [Zero K] (d : ℕ) (w : Writer) (hw : w.dim = none ∨ w.dim = some d)
    (calls : List (String × NDArray F × NDArray K)) (h : ∀ c ∈ calls, c.2.2.shape[1]? = some d) :
    (w.writes calls).kind = w.kind ∧ (w.writes calls).gridShape = w.gridShape ∧
      ((w.writes calls).dim = none ∨ (w.writes calls).dim = some d) := by
  induction calls generalizing w with
  | nil => exact ⟨rfl, rfl, hw⟩
  | cons c cs ih =>
    have hc := h c (by simp)
    have hs : (w.write c.1 c.2.1 c.2.2).1 = { w with dim := some d } := by
      rcases hw with hw | hw <;> simp [Writer.write, hw, hc]
    have := ih (w.write c.1 c.2.1 c.2.2).1 (by rw [hs]; exact .inr rfl)
      (fun x hx => h x (by simp [hx]))
    simp only [Writer.writes]
    rw [hs] at this ⊢
    exact this

/-- **C57** for histories of one dimension: after any sequence of calls (successful or not) with
`d`-dimensional particles, a call with `d`-dimensional particles writes what a new writer
would.

Partial: false when the dimension changes, see the two theorems below. -/
theorem C57_same_dim_partial [Zero K] (kind : WriterKind) (g : Option (List ℕ)) (d : ℕ)
    (history : List (String × NDArray F × NDArray K))
    (h : ∀ c ∈ history, c.2.2.shape[1]? = some d)
    (name : String) (field : NDArray F) (centroids : NDArray K)
    (hc : centroids.shape[1]? = some d) :
    (((Writer.fresh kind g).writes history).write name field centroids).2 =
      ((Writer.fresh kind g).write name field centroids).2 := by
  obtain ⟨h1, h2, h3⟩ := Writer.writes_dim d (Writer.fresh kind g) (.inl rfl) history h
  generalize (Writer.fresh kind g).writes history = w at h1 h2 h3
  obtain ⟨k, gs, dm⟩ := w
  dsimp only [Writer.fresh] at h1 h2 h3
  subst h1 h2
  rcases h3 with rfl | rfl <;> simp [Writer.write, Writer.fresh, hc]

/-- **C57 is false**: a MATLAB writer without shape that has written a planar field silently
drops the third coordinate of every later three-dimensional field. -/
theorem C57_drops_z_fails [Zero K] (name name₀ : String) (field field₀ : NDArray F)
    (centroids centroids₀ : NDArray K) (n m : ℕ)
    (hc₀ : centroids₀.shape = [m, 2]) (hc : centroids.shape = [n, 3]) :
    ∃ f x y z, ((Writer.fresh .mat none).write name field centroids).2 =
        .ok (.mat (name ++ ".mat") f x y (some z)) ∧
      (((Writer.fresh .mat none).writes [(name₀, field₀, centroids₀)]).write name field
        centroids).2 = .ok (.mat (name ++ ".mat") f x y none) := by
  have hw : (Writer.fresh .mat none).writes [(name₀, field₀, centroids₀)] =
      ⟨.mat, none, some 2⟩ := by
    simp [Writer.writes, Writer.write, Writer.fresh, hc₀]
  rw [hw, fresh_write _ _ _ _ _ hc]
  simp [Writer.write, writeMat, column, hc, optionalZ]

/-- **C57 is false**: after a three-dimensional field, a planar field that a new writer accepts
is refused (`IndexError` in the MATLAB writer, `ValueError` in the VTK writer). -/
theorem C57_refuses_fails [Zero K] (kind : WriterKind) (name name₀ : String)
    (field field₀ : NDArray F) (centroids centroids₀ : NDArray K) (n m : ℕ)
    (hc₀ : centroids₀.shape = [m, 3])
    (hf : field.shape = [n]) (hc : centroids.shape = [n, 2]) :
    (∃ s, ((Writer.fresh kind none).write name field centroids).2 = .ok s) ∧
      (((Writer.fresh kind none).writes [(name₀, field₀, centroids₀)]).write name field
        centroids).2 = .error (match kind with | .mat => .indexError | .vtk => .valueError) := by
  have hw : (Writer.fresh kind none).writes [(name₀, field₀, centroids₀)] =
      ⟨kind, none, some 3⟩ := by
    simp [Writer.writes, Writer.write, Writer.fresh, hc₀]
  rw [hw]
  cases kind with
  | mat =>
    obtain ⟨s, h, -⟩ := C54_flat none (.inl rfl) name field centroids n 2 (.inl rfl) hf hc
    exact ⟨⟨s, h⟩, by simp [Writer.write, writeMat, column, hc, optionalZ]⟩
  | vtk =>
    obtain ⟨s, h, -⟩ := C55_unstructured name field centroids n 2 (.inl rfl) hf hc
    exact ⟨⟨s, h⟩, by simp [Writer.write, writeVtk, hc]⟩

/-! ## C71 -/

/-- **C71 is false**: on every grid with at least two nodes along both axes, and for every field
of distinct values, the node `(0, 1)` of the MATLAB file and of the VTK file carry different
groups (the MATLAB writer numbers groups with the last index fastest, the VTK writer with the
first). -/
theorem C71_formats_disagree_fails [Zero K] (nx ny : ℕ) (hx : 2 ≤ nx) (hy : 2 ≤ ny)
    (name : String) (field : NDArray F) (centroids : NDArray K) (n : ℕ)
    (hf : field.shape = [n]) (hc : centroids.shape = [n, 2]) (hn : nx * ny = n)
    (hdf : ∀ i < n, ∀ j < n, field.get [i] = field.get [j] → i = j) :
    ∃ s t, ((Writer.fresh .mat (some [nx, ny])).write name field centroids).2 = .ok s ∧
      ((Writer.fresh .vtk (some [nx, ny])).write name field centroids).2 = .ok t ∧
      s.nodeValue [0, 1, 0] = some (field.get [1]) ∧
      t.nodeValue [0, 1, 0] = some (field.get [nx]) ∧
      s.nodeValue [0, 1, 0] ≠ t.nodeValue [0, 1, 0] := by
  obtain ⟨s, h1, -, h3⟩ := C54_structured (.two nx ny) name field centroids n 2 (.inl rfl) hf hc
    (by simpa using hn)
  have hp : ([nx, ny, 1] : List ℕ).prod = n := by simpa using hn
  obtain ⟨c, hc1, hc2, -⟩ := reshapeF_coords centroids hc hp
  have hx' := lastCol_ok c hc2 (show 0 < 2 by omega)
  have hy' := lastCol_ok c hc2 (show 1 < 2 by omega)
  simp only [List.cons_append, List.nil_append] at hc1
  have hlen : field.ravelF.shape = [n] := by
    simp [NDArray.ravelF, NDArray.ofFn1, NDArray.size, hf]
  have hv : ValidIdx [nx, ny, 1] [0, 1, 0] := by simp; omega
  have hnn : 2 * nx ≤ n := by rw [← hn, Nat.mul_comm]; exact Nat.mul_le_mul_left _ hy
  have es : s.nodeValue [0, 1, 0] = some (field.get [1]) := by
    rw [h3 _ hv]; simp [encC]
  have et : (Saved.vts (name ++ ".vts") [nx, ny, 1]
      (structuredPoints ⟨[nx, ny, 1], fun idx => c.get (idx ++ [0])⟩
        ⟨[nx, ny, 1], fun idx => c.get (idx ++ [1])⟩ ⟨[nx, ny, 1], fun _ => 0⟩)
      Assoc.points field.ravelF).nodeValue [0, 1, 0] = some (field.get [nx]) := by
    simp [Saved.nodeValue, hv, encF, NDArray.ravelF, NDArray.ofFn1, hf, decF,
      Nat.mod_eq_of_lt (show nx < n by omega)]
  refine ⟨s, _, h1, ?_, es, et, ?_⟩
  · rw [fresh_write _ _ _ _ _ hc]
    simp only [writeVtk, hc1, hx', hy', attach, hlen, NDArray.size, hp, List.headD_cons, if_true]
  rw [es]
  intro h
  rw [et] at h
  have := hdf 1 (by omega) nx (by omega) (Option.some.inj h)
  omega

/-! ## Concrete cases -/

/-- A field of `n` distinct values. -/
def exWField (n : ℕ) : NDArray ℤ := ⟨[n], fun idx => idx.headD 0⟩

/-- `n` distinct centroids with `d` coordinates. -/
def exWCentroids (n d : ℕ) : NDArray ℤ := ⟨[n, d], fun idx => 10 * idx.headD 0 + idx.getD 1 0 + 1⟩

example : ∃ s, ((Writer.fresh .mat (some [2, 3])).write "a" (exWField 6) (exWCentroids 6 2)).2 =
    .ok s ∧ s.Says (groupRecords 6 2 (exWField 6) (exWCentroids 6 2)) ∧
      ∀ idx, ValidIdx [2, 3, 1] idx → s.nodeValue idx = some ((exWField 6).get [encC [2, 3, 1] idx]) :=
  C54_structured (.two 2 3) "a" _ _ 6 2 (.inl rfl) rfl rfl rfl

example : ∃ s, ((Writer.fresh .mat none).write "a" (exWField 5) (exWCentroids 5 3)).2 =
    .ok s ∧ s.records = some (groupRecords 5 3 (exWField 5) (exWCentroids 5 3)) ∧
      s.Says (groupRecords 5 3 (exWField 5) (exWCentroids 5 3)) :=
  C54_flat none (.inl rfl) "a" _ _ 5 3 (.inr rfl) rfl rfl

example : ((Writer.fresh .mat (some [2, 2])).write "a" (exWField 5) (exWCentroids 5 3)).2 =
    .error .valueError :=
  C54_mismatch (.two 2 2) "a" _ _ 5 3 rfl rfl (by decide)

example : ∃ s, ((Writer.fresh .vtk (some [2, 3])).write "a" (exWField 6) (exWCentroids 6 2)).2 =
    .ok s ∧ s.Says (spaceRecords 6 2 (exWField 6) (exWCentroids 6 2)) :=
  C55_two_dim 2 3 "a" _ _ 6 rfl rfl rfl

example : ∃ s, ((Writer.fresh .vtk none).write "a" (exWField 6) (exWCentroids 6 2)).2 =
    .ok s ∧ s.Says (spaceRecords 6 2 (exWField 6) (exWCentroids 6 2)) :=
  C55_unstructured "a" _ _ 6 2 (.inl rfl) rfl rfl

example : ∃ s, ((Writer.fresh .vtk (some [3, 1, 2])).write "a" (exWField 6)
    (exWCentroids 6 3)).2 = .ok s ∧ s.Says (spaceRecords 6 3 (exWField 6) (exWCentroids 6 3)) :=
  C55_three_dim_partial 3 1 2 (by decide) "a" _ _ 6 rfl rfl rfl

example : ∃ s, ((Writer.fresh .vtk (some [2, 3, 2])).write "a" (exWField 12)
    (exWCentroids 12 3)).2 = .ok s ∧ s.records.isSome ∧
      ¬ s.Says (spaceRecords 12 3 (exWField 12) (exWCentroids 12 3)) :=
  C55_three_dim_fails 2 3 2 (by decide) (by decide) (by decide) "a" _ _ 12 rfl rfl rfl
    (by intro i _ j _ h; simpa [exWField] using h)
    (by intro i _ j _ h; have := h 0 (by decide); simp [exWCentroids] at this; omega)

example : ∃ s, ((Writer.fresh .vtk (some [2, 3])).write "a" (exWField 6) (exWCentroids 6 3)).2 =
    .ok s ∧ s.records.isSome ∧ ¬ s.Says (spaceRecords 6 3 (exWField 6) (exWCentroids 6 3)) :=
  C55_flattened_fails 2 3 "a" _ _ 6 rfl rfl rfl 1 (by decide) (by decide)

example : ((Writer.fresh .vtk (some [6])).write "a" (exWField 6) (exWCentroids 6 3)).2 =
    .error .valueError :=
  C56_vtk [6] "a" _ _ 6 3 (.inr rfl) rfl (by decide)

example : ((Writer.fresh .mat (some [6])).write "a" (exWField 6) (exWCentroids 6 3)).2 =
    .error .valueError :=
  C56_mat_partial [6] (by decide) "a" _ _ 6 3 rfl rfl (by decide)

example : (∃ pts v, ((Writer.fresh .vtk (some [2, 3])).write "a" (exWField 2)
      (exWCentroids 6 2)).2 = .ok (.vts ("a" ++ ".vts") [2, 3, 1] pts .cells v)) ∧
    ((Writer.fresh .mat (some [2, 3])).write "a" (exWField 2) (exWCentroids 6 2)).2 =
      .error .valueError :=
  C56_cell_values_fails 2 3 (by decide) (by decide) "a" _ _ rfl rfl

example : (((Writer.fresh .vtk (some [2, 3])).writes [("a", exWField 6, exWCentroids 6 2),
    ("b", exWField 5, exWCentroids 5 2)]).write "c" (exWField 6) (exWCentroids 6 2)).2 =
      ((Writer.fresh .vtk (some [2, 3])).write "c" (exWField 6) (exWCentroids 6 2)).2 :=
  C57_same_dim_partial .vtk _ 2 _ (by simp [exWCentroids]) "c" _ _ rfl

example : ∃ s t, ((Writer.fresh .mat (some [2, 2])).write "a" (exWField 4) (exWCentroids 4 2)).2 =
      .ok s ∧
      ((Writer.fresh .vtk (some [2, 2])).write "a" (exWField 4) (exWCentroids 4 2)).2 = .ok t ∧
      s.nodeValue [0, 1, 0] = some ((exWField 4).get [1]) ∧
      t.nodeValue [0, 1, 0] = some ((exWField 4).get [2]) ∧
      s.nodeValue [0, 1, 0] ≠ t.nodeValue [0, 1, 0] :=
  C71_formats_disagree_fails 2 2 (by decide) (by decide) "a" _ _ 4 rfl rfl rfl
    (by intro i _ j _ h; simpa [exWField] using h)

end Verif
