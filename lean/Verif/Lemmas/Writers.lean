import Verif.Spec.Output
import Verif.Lemmas.Index

/-!
# Index lemmas for the writers
-/

namespace Verif

variable {K F : Type}

theorem encC_snoc {sh idx : List ℕ} (h : ValidIdx sh idx) (d c : ℕ) :
    encC (sh ++ [d]) (idx ++ [c]) = encC sh idx * d + c := by
  induction sh generalizing idx with
  | nil => cases h; simp [encC]
  | cons n ns ih =>
    cases idx with
    | nil => simp at h
    | cons i is =>
      simp only [validIdx_cons] at h
      simp only [List.cons_append, encC, ih h.2, List.prod_append, List.prod_singleton]
      ring

theorem encF_snoc {sh idx : List ℕ} (h : ValidIdx sh idx) (d c : ℕ) :
    encF (sh ++ [d]) (idx ++ [c]) = encF sh idx + sh.prod * c := by
  induction sh generalizing idx with
  | nil => cases h; simp [encF]
  | cons n ns ih =>
    cases idx with
    | nil => simp at h
    | cons i is =>
      simp only [validIdx_cons] at h
      simp only [List.cons_append, encF, ih h.2, List.prod_cons]
      ring

theorem decC_pair {d k c : ℕ} (n : ℕ) (h : c < d) : decC [n, d] (k * d + c) = [k, c] := by
  have hd : 0 < d := by omega
  simp [decC, Nat.mul_comm k d, Nat.mul_add_div hd, Nat.div_eq_of_lt h, Nat.mod_eq_of_lt h]

theorem decF_pair {n k c : ℕ} (d : ℕ) (h : k < n) (hc : c < d) :
    decF [n, d] (k + n * c) = [k, c] := by
  have hn : 0 < n := by omega
  simp [decF, Nat.add_mul_div_left _ _ hn, Nat.div_eq_of_lt h, Nat.mod_eq_of_lt h,
    Nat.mod_eq_of_lt hc]

/-- Entries of centroids reshaped in C order. -/
theorem reshapeC_coords (a : NDArray K) {n d : ℕ} {sh : List ℕ} (ha : a.shape = [n, d])
    (hn : sh.prod = n) :
    ∃ b, a.reshapeC (sh ++ [d]) = .ok b ∧ b.shape = sh ++ [d] ∧
      ∀ idx c, ValidIdx sh idx → c < d → b.get (idx ++ [c]) = a.get [encC sh idx, c] := by
  refine ⟨⟨sh ++ [d], fun idx => a.get (decC a.shape (encC (sh ++ [d]) idx))⟩, ?_, rfl, ?_⟩
  · simp [NDArray.reshapeC, ha, hn]
  · intro idx c hi hc
    simp only [encC_snoc hi, ha, decC_pair n hc]

/-- Entries of centroids reshaped in Fortran order. -/
theorem reshapeF_coords (a : NDArray K) {n d : ℕ} {sh : List ℕ} (ha : a.shape = [n, d])
    (hn : sh.prod = n) :
    ∃ b, a.reshapeF (sh ++ [d]) = .ok b ∧ b.shape = sh ++ [d] ∧
      ∀ idx c, ValidIdx sh idx → c < d → b.get (idx ++ [c]) = a.get [encF sh idx, c] := by
  refine ⟨⟨sh ++ [d], fun idx => a.get (decF a.shape (encF (sh ++ [d]) idx))⟩, ?_, rfl, ?_⟩
  · simp [NDArray.reshapeF, ha, hn]
  · intro idx c hi hc
    simp only [encF_snoc hi, ha, hn]
    rw [decF_pair d (by rw [← hn]; exact encF_lt hi) hc]

/-- Entries of a flat field reshaped in C order. -/
theorem reshapeC_field (a : NDArray F) {n : ℕ} {sh : List ℕ} (ha : a.shape = [n])
    (hn : sh.prod = n) :
    ∃ b, a.reshapeC sh = .ok b ∧ b.shape = sh ∧
      ∀ idx, b.get idx = a.get [encC sh idx] := by
  refine ⟨⟨sh, fun idx => a.get (decC a.shape (encC sh idx))⟩, ?_, rfl, ?_⟩
  · simp [NDArray.reshapeC, ha, hn]
  · intro idx
    simp [ha, decC]

theorem lastCol_ok (a : NDArray K) {sh : List ℕ} {d c : ℕ} (ha : a.shape = sh ++ [d])
    (hc : c < d) : lastCol a c = .ok ⟨sh, fun idx => a.get (idx ++ [c])⟩ := by
  simp [lastCol, ha, hc, NDArray.lastAxis]

theorem writeMat_structured {g sh : List ℕ} (hg : GridShape g sh) (name : String)
    (field : NDArray F) (centroids : NDArray K) (n d : ℕ) (hd : d = 2 ∨ d = 3)
    (hf : field.shape = [n]) (hc : centroids.shape = [n, d]) (hn : sh.prod = n) :
    ∃ f x y z, writeMat (some g) d name field centroids = .ok (.mat (name ++ ".mat") f x y z) ∧
      f.shape = sh ∧ x.shape = sh ∧ y.shape = sh ∧ (∀ a ∈ z, a.shape = sh) ∧
      ∀ idx, ValidIdx sh idx →
        (f.get idx, [x.get idx, y.get idx] ++ (z.map fun a => a.get idx).toList) =
          groupRecord field centroids d (encC sh idx) := by
  obtain ⟨f, hf1, hf2, hf3⟩ := reshapeC_field field hf hn
  obtain ⟨c, hc1, hc2, hc3⟩ := reshapeC_coords centroids hc hn
  have hx := lastCol_ok c hc2 (show 0 < d by omega)
  have hy := lastCol_ok c hc2 (show 1 < d by omega)
  rcases hd with rfl | rfl
  · refine ⟨f, ⟨sh, fun idx => c.get (idx ++ [0])⟩, ⟨sh, fun idx => c.get (idx ++ [1])⟩, none,
      ?_, hf2, rfl, rfl, by simp, ?_⟩
    · cases hg <;> simp only [writeMat, hf1, hc1, hx, hy, optionalZ] <;> rfl
    · intro idx hi
      simp [groupRecord, hf3, hc3 _ _ hi, List.range_succ]
  · have hz := lastCol_ok c hc2 (show 2 < 3 by omega)
    refine ⟨f, ⟨sh, fun idx => c.get (idx ++ [0])⟩, ⟨sh, fun idx => c.get (idx ++ [1])⟩,
      some ⟨sh, fun idx => c.get (idx ++ [2])⟩, ?_, hf2, rfl, rfl, by simp, ?_⟩
    · cases hg <;> simp only [writeMat, hf1, hc1, hx, hy, hz, optionalZ] <;> rfl
    · intro idx hi
      simp [groupRecord, hf3, hc3 _ _ hi, List.range_succ]

theorem writeMat_flat (g : Option (List ℕ)) (hg : g = none ∨ g = some []) (name : String)
    (field : NDArray F) (centroids : NDArray K) (n d : ℕ) (hd : d = 2 ∨ d = 3)
    (hf : field.shape = [n]) (hc : centroids.shape = [n, d]) :
    ∃ s, writeMat g d name field centroids = .ok s ∧
      s.records = some (groupRecords n d field centroids) := by
  obtain ⟨fs, fg⟩ := field
  obtain ⟨cs, cg⟩ := centroids
  dsimp only at hf hc
  subst hf hc
  rcases hg with rfl | rfl <;> rcases hd with rfl | rfl <;>
    refine ⟨_, rfl, ?_⟩ <;>
    simp [Saved.records, NDArray.ravelC, NDArray.ofFn1, NDArray.size, decC, groupRecords,
      groupRecord, List.range_succ]

/-- Reading a structured `.mat` file in the order of its entries lists the groups in order. -/
theorem records_of_entries {sh : List ℕ} {n d : ℕ} {name : String} {field f : NDArray F}
    {centroids x y : NDArray K} {z : Option (NDArray K)} (hn : sh.prod = n)
    (hf : f.shape = sh) (hx : x.shape = sh) (hy : y.shape = sh) (hz : ∀ a ∈ z, a.shape = sh)
    (h : ∀ idx, ValidIdx sh idx →
        (f.get idx, [x.get idx, y.get idx] ++ (z.map fun a => a.get idx).toList) =
          groupRecord field centroids d (encC sh idx)) :
    (Saved.mat name f x y z).records = some (groupRecords n d field centroids) := by
  subst hf
  simp only [Saved.records, hx, hy, true_and]
  rw [if_pos hz]
  simp only [groupRecords, NDArray.size, hn, Option.some.injEq, List.map_inj_left,
    List.mem_range]
  intro p hp
  rw [← hn] at hp
  rw [h _ (validIdx_decC hp), encC_decC hp]

/-- The coordinates of a structured grid built from the columns of `c`. -/
theorem structuredPoints_get (c : NDArray K) (z : NDArray K) (sh : List ℕ) (p : ℕ) :
    let x : NDArray K := ⟨sh, fun idx => c.get (idx ++ [0])⟩
    let y : NDArray K := ⟨sh, fun idx => c.get (idx ++ [1])⟩
    (List.range 3).map (fun i => (structuredPoints x y z).get [p, i]) =
      [c.get (decF sh p ++ [0]), c.get (decF sh p ++ [1]), z.get (decF z.shape p)] := by
  simp [structuredPoints, NDArray.ravelF, NDArray.ofFn1, List.range_succ]

theorem writeVtk_two [Zero K] (nx ny : ℕ) (name : String) (field : NDArray F)
    (centroids : NDArray K) (n d : ℕ) (hd : d = 2 ∨ d = 3) (hf : field.shape = [n])
    (hc : centroids.shape = [n, d]) (hn : nx * ny = n) :
    ∃ s, writeVtk (some [nx, ny]) d name field centroids = .ok s ∧
      s.records = some ((List.range n).map fun i =>
        (field.get [i], [centroids.get [i, 0], centroids.get [i, 1], 0])) := by
  have hp : ([nx, ny, 1] : List ℕ).prod = n := by simpa using hn
  obtain ⟨c, hc1, hc2, hc3⟩ := reshapeF_coords centroids hc hp
  have hx := lastCol_ok c hc2 (show 0 < d by omega)
  have hy := lastCol_ok c hc2 (show 1 < d by omega)
  simp only [List.cons_append, List.nil_append] at hc1
  have hlen : field.ravelF.shape = [n] := by simp [NDArray.ravelF, NDArray.ofFn1, NDArray.size, hf]
  refine ⟨.vts (name ++ ".vts") [nx, ny, 1]
    (structuredPoints ⟨[nx, ny, 1], fun idx => c.get (idx ++ [0])⟩
      ⟨[nx, ny, 1], fun idx => c.get (idx ++ [1])⟩ ⟨[nx, ny, 1], fun _ => 0⟩) .points
      field.ravelF, ?_, ?_⟩
  · simp only [writeVtk, hc1, hx, hy, attach, hlen, NDArray.size, hp, List.headD_cons, if_true]
  · have hs : (structuredPoints (K := K) ⟨[nx, ny, 1], fun idx => c.get (idx ++ [0])⟩
      ⟨[nx, ny, 1], fun idx => c.get (idx ++ [1])⟩ ⟨[nx, ny, 1], fun _ => 0⟩).shape = [n, 3] := by
      simp only [structuredPoints, NDArray.size, hp]
    have hsz : field.ravelF.size = n := by simp [NDArray.size, hlen]
    simp only [Saved.records, hlen, hs, List.cons_append, List.nil_append, if_true, hsz,
      Option.some.injEq, List.map_inj_left, List.mem_range]
    intro p hpn
    rw [← hp] at hpn
    rw [structuredPoints_get, hc3 _ _ (validIdx_decF hpn) (by omega),
      hc3 _ _ (validIdx_decF hpn) (by omega), encF_decF hpn]
    have : p < n := by rw [← hp]; exact hpn
    simp [NDArray.ravelF, NDArray.ofFn1, hf, decF, Nat.mod_eq_of_lt this]

/-- The group whose value the 3-D structured VTK file attaches to point `p`. -/
def vtkValueGroup (nx ny nz p : ℕ) : ℕ :=
  encC [nx, ny, nz] [p / ny % nx, p % ny, p / ny / nx % nz]

/-- The group whose centroid is point `p` of the 3-D structured VTK file. -/
def vtkPointGroup (nx ny nz p : ℕ) : ℕ :=
  encC [nx, ny, nz] (decF [nx, ny, nz] p)

theorem writeVtk_three [Zero K] (nx ny nz : ℕ) (name : String) (field : NDArray F)
    (centroids : NDArray K) (n : ℕ) (hf : field.shape = [n])
    (hc : centroids.shape = [n, 3]) (hn : nx * ny * nz = n) :
    ∃ s, writeVtk (some [nx, ny, nz]) 3 name field centroids = .ok s ∧
      s.records = some ((List.range n).map fun p =>
        (field.get [vtkValueGroup nx ny nz p],
          (List.range 3).map fun c => centroids.get [vtkPointGroup nx ny nz p, c])) := by
  have hp : ([nx, ny, nz] : List ℕ).prod = n := by simp [← hn, Nat.mul_assoc]
  obtain ⟨c, hc1, hc2, hc3⟩ := reshapeC_coords centroids hc hp
  obtain ⟨f, hf1, hf2, hf3⟩ := reshapeC_field field hf hp
  have hx := lastCol_ok c hc2 (show 0 < 3 by omega)
  have hy := lastCol_ok c hc2 (show 1 < 3 by omega)
  have hz := lastCol_ok c hc2 (show 2 < 3 by omega)
  simp only [List.cons_append, List.nil_append] at hc1
  have hlen : (f.transpose [1, 0, 2]).ravelF.shape = [n] := by
    simp [NDArray.ravelF, NDArray.ofFn1, NDArray.size, NDArray.transpose, hf2, ← hn]
    ring
  refine ⟨.vts (name ++ ".vts") [nx, ny, nz]
    (structuredPoints ⟨[nx, ny, nz], fun idx => c.get (idx ++ [0])⟩
      ⟨[nx, ny, nz], fun idx => c.get (idx ++ [1])⟩
      ⟨[nx, ny, nz], fun idx => c.get (idx ++ [2])⟩) .points
      (f.transpose [1, 0, 2]).ravelF, ?_, ?_⟩
  · simp only [writeVtk, hc1, hx, hy, hz, hf1, attach, hlen, NDArray.size, hp, List.headD_cons,
      if_true]
  · have hs : (structuredPoints (K := K) ⟨[nx, ny, nz], fun idx => c.get (idx ++ [0])⟩
      ⟨[nx, ny, nz], fun idx => c.get (idx ++ [1])⟩
      ⟨[nx, ny, nz], fun idx => c.get (idx ++ [2])⟩).shape = [n, 3] := by
      simp only [structuredPoints, NDArray.size, hp]
    have hsz : (f.transpose [1, 0, 2]).ravelF.size = n := by simp [NDArray.size, hlen]
    simp only [Saved.records, hlen, hs, List.cons_append, List.nil_append, if_true, hsz,
      Option.some.injEq, List.map_inj_left, List.mem_range]
    intro p hpn
    rw [← hp] at hpn
    rw [structuredPoints_get]
    have hv := validIdx_decF hpn
    rw [hc3 _ _ hv (by omega), hc3 _ _ hv (by omega), hc3 _ _ hv (by omega)]
    refine Prod.ext ?_ ?_
    · have : decF [ny, nx, nz] p = [p % ny, p / ny % nx, p / ny / nx % nz] := by simp [decF]
      have h2 : (f.transpose [1, 0, 2]).shape = [ny, nx, nz] := by
        simp [NDArray.transpose, hf2]
      show (f.transpose [1, 0, 2]).get (decF (f.transpose [1, 0, 2]).shape p) = _
      rw [h2, this]
      simp [NDArray.transpose, hf2, List.range_succ, vtkValueGroup, hf3, List.idxOf, List.findIdx_cons]
    · simp [List.range_succ, vtkPointGroup]

theorem writeVtk_flat [Zero K] (name : String) (field : NDArray F)
    (centroids : NDArray K) (n d : ℕ) (hd : d = 2 ∨ d = 3) (hf : field.shape = [n])
    (hc : centroids.shape = [n, d]) :
    ∃ s, writeVtk none d name field centroids = .ok s ∧
      s.records = some (spaceRecords n d field centroids) := by
  obtain ⟨fs, fg⟩ := field
  obtain ⟨cs, cg⟩ := centroids
  dsimp only at hf hc
  subst hf hc
  rcases hd with rfl | rfl
  · refine ⟨.vtp (name ++ ".vtp") ⟨[n, 3], fun idx =>
      match idx with
      | [r, c] => if c < 2 then cg [r, c] else 0
      | _ => cg idx⟩ .points (NDArray.ravelC ⟨[n], fg⟩), ?_, ?_⟩
    · simp [writeVtk, appendZeroColumn, attach, NDArray.ravelC, NDArray.ofFn1, NDArray.size]
      rfl
    · simp [Saved.records, NDArray.ravelC, NDArray.ofFn1, NDArray.size, decC, groupRecords,
        spaceRecords, groupRecord, List.range_succ]
  · refine ⟨.vtp (name ++ ".vtp") ⟨[n, 3], cg⟩ .points (NDArray.ravelC ⟨[n], fg⟩), ?_, ?_⟩
    · simp [writeVtk, attach, NDArray.ravelC, NDArray.ofFn1, NDArray.size]
    · simp [Saved.records, NDArray.ravelC, NDArray.ofFn1, NDArray.size, decC, groupRecords,
        spaceRecords, groupRecord, List.range_succ]

end Verif
