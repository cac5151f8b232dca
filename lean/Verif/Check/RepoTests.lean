import Verif.Model.FileReaders
import Verif.Model.FileUtils
import Verif.Model.Writers
import Verif.Model.Ftle
import Verif.Props.Ftle

/-!
# The tests of the repository, run on the model

`/repo/tests` states what the authors observed of the real code.  The assertions of its tests are
repeated here for the model: a check of the translation, not a proof of a property.

Left out: `np.isfinite` of SciPy's results (SciPy is a parameter of the model) and what the tests
say about the calls of mocked functions.  Decimals are rationals.
-/

namespace Verif.RepoTests

open Verif

/-- A nested list as an array. -/
def arr1 (l : List ℚ) : NDArray ℚ := ⟨[l.length], fun i => l.getD (i.getD 0 0) 0⟩

/-- A list of rows as an array. -/
def arr2 (d : ℕ) (l : List (List ℚ)) : NDArray ℚ :=
  ⟨[l.length, d], fun i => (l.getD (i.getD 0 0) []).getD (i.getD 1 0) 0⟩

/-- Shape and elements of a result. -/
def seen {α : Type} (r : Py (NDArray α)) : Py (List ℕ × List α) :=
  r.map fun a => (a.shape, a.toList)

/-! ## `tests/test_file_readers.py` -/

/-- `savemat` stores a 1-D array as one row. -/
def matRow (l : List ℚ) : NDArray ℚ := ⟨[1, l.length], fun i => l.getD (i.getD 1 0) 0⟩

/-- A file system with one file. -/
def oneFile (vars : List (String × NDArray ℚ)) : MatFS ℚ :=
  fun p => if p = "f.mat" then some fun k => vars.lookup k else none

-- test_read_velocity_2d
example : seen (readVelocity (oneFile [("velocity_x", matRow [1, 2, 3]),
    ("velocity_y", matRow [4, 5, 6])]) "f.mat") = .ok ([2, 3], [1, 2, 3, 4, 5, 6]) := by
  decide +kernel

-- test_read_velocity_3d
example : seen (readVelocity (oneFile [("velocity_x", matRow [1, 2, 3]),
    ("velocity_y", matRow [4, 5, 6]), ("velocity_z", matRow [7, 8, 9])]) "f.mat") =
    .ok ([3, 3], [1, 2, 3, 4, 5, 6, 7, 8, 9]) := by
  decide +kernel

-- test_read_coordinate_2d
example : seen (readCoordinate (oneFile [("coordinate_x", matRow [10, 11, 12]),
    ("coordinate_y", matRow [13, 14, 15])]) "f.mat") =
    .ok ([2, 3], [10, 11, 12, 13, 14, 15]) := by
  decide +kernel

-- test_read_coordinate_3d
example : seen (readCoordinate (oneFile [("coordinate_x", matRow [10, 11, 12]),
    ("coordinate_y", matRow [13, 14, 15]), ("coordinate_z", matRow [16, 17, 18])]) "f.mat") =
    .ok ([3, 3], [10, 11, 12, 13, 14, 15, 16, 17, 18]) := by
  decide +kernel

-- test_read_seed_particles_coordinates_2d
example : seen ((readSeedParticles (oneFile [("top", arr2 2 [[1, 2], [3, 4]]),
    ("bottom", arr2 2 [[5, 6], [7, 8]]), ("left", arr2 2 [[9, 10], [11, 12]]),
    ("right", arr2 2 [[13, 14], [15, 16]])]) "f.mat").map (·.positions)) =
    .ok ([8, 2], [9, 10, 11, 12, 13, 14, 15, 16, 1, 2, 3, 4, 5, 6, 7, 8]) := by
  decide +kernel

-- test_read_seed_particles_coordinates_3d
example : seen ((readSeedParticles (oneFile [("top", arr2 3 [[1, 2, 3], [4, 5, 6]]),
    ("bottom", arr2 3 [[7, 8, 9], [10, 11, 12]]), ("left", arr2 3 [[13, 14, 15], [16, 17, 18]]),
    ("right", arr2 3 [[19, 20, 21], [22, 23, 24]]),
    ("front", arr2 3 [[25, 26, 27], [28, 29, 30]]),
    ("back", arr2 3 [[31, 32, 33], [34, 35, 36]])]) "f.mat").map (·.positions)) =
    .ok ([12, 3], [13, 14, 15, 16, 17, 18, 19, 20, 21, 22, 23, 24, 1, 2, 3, 4, 5, 6, 7, 8, 9, 10,
      11, 12, 25, 26, 27, 28, 29, 30, 31, 32, 33, 34, 35, 36]) := by
  decide +kernel

/-! ## `tests/test_neighboring_particles.py` -/

/-- The two fixtures `sample_particles`. -/
def sample2 : NDArray ℚ := arr2 2 [[0, 0], [1, 0], [1/2, 1], [1/2, 0]]
/-- The fixture in space. -/
def sample3 : NDArray ℚ :=
  arr2 3 [[0, 0, 0], [1, 0, 0], [1/2, 1, 0], [1/2, -1, 0], [1/2, 0, 1], [1/2, 0, -1]]

-- test_len
example : (mkParticles sample2).map Particles.len = .ok 1 := by decide +kernel
example : (mkParticles sample3).map Particles.len = .ok 1 := by decide +kernel

-- test_initial_deltas
example : seen ((mkParticles sample2).map (·.initialDeltaTB)) = .ok ([1, 2], [0, 1]) := by
  decide +kernel
example : seen ((mkParticles sample2).map (·.initialDeltaRL)) = .ok ([1, 2], [1, 0]) := by
  decide +kernel
example : seen ((mkParticles sample3).map (·.initialDeltaTB)) = .ok ([1, 3], [0, 2, 0]) := by
  decide +kernel
example : seen ((mkParticles sample3).map (·.initialDeltaRL)) = .ok ([1, 3], [1, 0, 0]) := by
  decide +kernel
example : seen ((mkParticles sample3).map (·.initialDeltaFB)) = .ok ([1, 3], [0, 0, 2]) := by
  decide +kernel

/-- Assigning to `positions`. -/
def moveTo (p : Particles ℚ) (pos : NDArray ℚ) : Particles ℚ := { p with positions := pos }

-- test_dynamic_delta_properties
example : seen ((mkParticles sample2).bind Particles.deltaTB) = .ok ([1, 2], [0, 1]) := by
  decide +kernel
example : seen ((mkParticles sample2).bind Particles.deltaRL) = .ok ([1, 2], [1, 0]) := by
  decide +kernel
example : seen ((mkParticles sample2).bind fun p =>
    (moveTo p (arr2 2 [[1/10, 1/10], [11/10, 1/10], [6/10, 11/10], [4/10, 1/10]])).deltaTB) =
    .ok ([1, 2], [6/10 - 4/10, 11/10 - 1/10]) := by
  decide +kernel
example : seen ((mkParticles sample2).bind fun p =>
    (moveTo p (arr2 2 [[1/10, 1/10], [11/10, 1/10], [6/10, 11/10], [4/10, 1/10]])).deltaRL) =
    .ok ([1, 2], [11/10 - 1/10, 1/10 - 1/10]) := by
  decide +kernel
example : seen ((mkParticles sample3).bind Particles.deltaFB) = .ok ([1, 3], [0, 0, 2]) := by
  decide +kernel
example : seen ((mkParticles sample3).bind fun p =>
    (moveTo p (arr2 3 [[0, 0, 0], [1, 0, 0], [1/2, 1, 0], [1/2, -1, 0], [6/10, 0, 11/10],
      [4/10, 0, -11/10]])).deltaFB) =
    .ok ([1, 3], [6/10 - 4/10, 0, 11/10 - -11/10]) := by
  decide +kernel

-- test_independence_of_initial_deltas
example (p : Particles ℚ) : (moveTo p (p.positions.map (· + 2/10))).initialDeltaTB =
    p.initialDeltaTB ∧ (moveTo p (p.positions.map (· + 2/10))).initialDeltaRL =
    p.initialDeltaRL ∧ (moveTo p (p.positions.map (· + 2/10))).initialDeltaFB =
    p.initialDeltaFB := ⟨rfl, rfl, rfl⟩

-- test_initial_centroid, test_dynamic_centroid
example : seen ((mkParticles sample2).map (·.initialCentroid)) =
    .ok ([1, 2], [(0 + 1 + 1/2 + 1/2) / 4, (0 + 0 + 1 + 0) / 4]) := by
  decide +kernel
example : seen ((mkParticles sample3).map (·.initialCentroid)) =
    .ok ([1, 3], [(0 + 1 + 1/2 + 1/2 + 1/2 + 1/2) / 6, 0, 0]) := by
  decide +kernel
example : seen ((mkParticles sample2).bind Particles.centroid) = .ok ([1, 2], [1/2, 1/4]) := by
  decide +kernel
example : seen ((mkParticles sample2).bind fun p =>
    (moveTo p (arr2 2 [[1/10, 0], [1, 1/10], [1/2, 1], [1/2, -1/20]])).centroid) =
    .ok ([1, 2], [(1/10 + 1 + 1/2 + 1/2) / 4, (0 + 1/10 + 1 - 1/20) / 4]) := by
  decide +kernel

/-! ## `tests/test_file_writers.py` -/

/-- What the tests look at: name, shapes, whether there is a `z`. -/
def shapes : Saved ℚ ℚ → String × List (List ℕ) × Bool
  | .mat n f x y z => (n, [f.shape, x.shape, y.shape], z.isSome)
  | .vts n _ p _ f => (n, [p.shape, f.shape], true)
  | .vtp n p _ f => (n, [p.shape, f.shape], true)

/-- The fixtures. -/
def centroids2 : NDArray ℚ := arr2 2 [[0, 0], [1, 0], [0, 1], [1, 1]]
/-- The fixture in space. -/
def centroids3 : NDArray ℚ := arr2 3 [[0, 0, 0], [1, 0, 0], [0, 1, 0], [1, 1, 0], [0, 0, 1],
  [1, 0, 1], [0, 1, 1], [1, 1, 1]]
/-- `ftle_field_2d`. -/
def field2 : NDArray ℚ := arr1 [1, 2, 3, 4]
/-- `ftle_field_3d`. -/
def field3 : NDArray ℚ := arr1 [1, 2, 3, 4, 5, 6, 7, 8]

-- test_mat_writer_2d: the field has the shape (2, 2, 1), there is no `z`
example : (((Writer.fresh .mat (some [2, 2, 1])).write "test_2d" field2 centroids2).2.map shapes) =
    .ok ("test_2d.mat", [[2, 2, 1], [2, 2, 1], [2, 2, 1]], false) := by
  decide +kernel

-- test_mat_writer_3d
example : (((Writer.fresh .mat (some [2, 2, 2])).write "test_3d" field3 centroids3).2.map shapes) =
    .ok ("test_3d.mat", [[2, 2, 2], [2, 2, 2], [2, 2, 2]], true) := by
  decide +kernel

-- test_mat_writer_unstructured
example : (((Writer.fresh .mat none).write "test_unstructured" field2 centroids2).2.map shapes) =
    .ok ("test_unstructured.mat", [[4], [4], [4]], false) := by
  decide +kernel

-- test_vtk_writer_2d
example : (((Writer.fresh .vtk (some [2, 2])).write "test_3d" field2 centroids2).2.map shapes) =
    .ok ("test_3d.vts", [[4, 3], [4]], true) := by
  decide +kernel

-- test_vtk_writer_3d
example : (((Writer.fresh .vtk (some [2, 2, 2])).write "test_3d" field3 centroids3).2.map shapes) =
    .ok ("test_3d.vts", [[8, 3], [8]], true) := by
  decide +kernel

-- test_vtk_writer_unstructured
example : (((Writer.fresh .vtk none).write "test_unstructured" field2 centroids2).2.map shapes) =
    .ok ("test_unstructured.vtp", [[4, 3], [4]], true) := by
  decide +kernel

-- test_empty_particles_centroid
example : (((Writer.fresh .mat none).write "test_empty" (arr1 []) (arr2 2 [])).2.map shapes) =
    .ok ("test_empty.mat", [[0], [0], [0]], false) := by
  decide +kernel

/-! ## `tests/test_file_utils.py` -/

/-- Short texts as lists of characters. -/
def txt (s : String) : List Char := s.toList

-- test_find_files_with_pattern
example : findFiles [(txt "root_dir/file1.txt", txt "file1.txt"),
    (txt "root_dir/file2.txt", txt "file2.txt")] (txt "file") =
    [txt "root_dir/file1.txt", txt "root_dir/file2.txt"] := by
  rw [findFiles, List.mergeSort_of_pairwise (by decide +kernel)]
  decide +kernel

-- test_write_list_to_txt
example : writeList [txt "file1.txt", txt "file2.txt"] = txt "file1.txt\n" ++ txt "file2.txt\n" := by
  decide +kernel

-- test_get_files_list_exists
example : getFilesList (some (txt "file1.txt\n" ++ (txt "file2.txt\n" ++ txt "file3.txt\n"))) =
    .ok [some (txt "file1.txt"), some (txt "file2.txt"), some (txt "file3.txt")] := by
  decide +kernel

-- test_get_files_list_not_exists
example : getFilesList none = .error .fileNotFoundError := rfl

/-! ## `tests/test_integrate.py` -/

/-- The mock interpolator: a tenth of the position. -/
def mockVelocity : Velocity ℚ := fun q => .ok (q.map (· * (1 / 10)))

/-- The fixture `initial_conditions`. -/
def conditions : NDArray ℚ :=
  arr2 2 [[1, 2], [3, 4], [5, 6], [7, 8], [9, 10], [11, 12], [13, 14], [15, 16]]

-- test_euler_integrator
example : seen ((Integ.fresh .euler).step (fun _ => 7) mockVelocity (1 / 10) conditions).2 =
    .ok ([8, 2], conditions.toList.map fun x => x + 1 / 10 * x * (1 / 10)) := by
  decide +kernel

-- test_runge_kutta4_integrator (a stronger assertion than that of the test)
example : seen ((Integ.fresh .rk4).step (fun _ => 7) mockVelocity (1 / 10) conditions).2 =
    .ok ([8, 2], conditions.toList.map fun x =>
      x * (1 + 1 / 100 + (1 / 100) ^ 2 / 2 + (1 / 100) ^ 3 / 6 + (1 / 100) ^ 4 / 24)) := by
  decide +kernel

-- test_adams_bashforth2_integrator (first step)
example : seen ((Integ.fresh .ab2).step (fun _ => 7) mockVelocity (1 / 10) conditions).2 =
    .ok ([8, 2], conditions.toList.map fun x => x * (1 + 1 / 100)) := by
  decide +kernel

-- test_get_integrator
example (lower : String → String) (h1 : lower "ab2" = "ab2") (h2 : lower "AB2" = "ab2")
    (h3 : lower "euler" = "euler") (h4 : lower "EULER" = "euler") (h5 : lower "rk4" = "rk4")
    (h6 : lower "rK4" = "rk4") (h7 : lower "invalid" = "invalid") (h8 : lower "" = "") :
    createIntegrator lower "ab2" = .ok .ab2 ∧ createIntegrator lower "euler" = .ok .euler ∧
    createIntegrator lower "rk4" = .ok .rk4 ∧ createIntegrator lower "AB2" = .ok .ab2 ∧
    createIntegrator lower "EULER" = .ok .euler ∧ createIntegrator lower "rK4" = .ok .rk4 ∧
    createIntegrator lower "invalid" = .error .valueError ∧
    createIntegrator lower "" = .error .valueError := by
  simp [createIntegrator, h1, h2, h3, h4, h5, h6, h7, h8]

/-! ## `tests/test_interpolate.py` -/

-- test_interpolators_2d: whatever SciPy answers, the result has one row of two components per
-- query (also for the cubic class)
example (sp : SciPy ℚ) (junk : List ℕ → ℚ) (m : Scatter) (p v q : NDArray ℚ) (re im : ℕ → ℚ)
    (hp : p.shape = [2, 4]) (hv : v.shape = [2, 4]) (hq : q.shape = [2, 2])
    (hb : sp.scatterBuild m p (v.row 0) = none)
    (h0 : sp.scatterCall m p (v.row 0) q = .ok re) (h1 : sp.scatterCall m p (v.row 1) q = .ok im) :
    ∃ o, (((ScatterState.fresh m).update sp v (some p)).1.interpolate sp junk q) = .ok o ∧
      o.shape = [2, 2] ∧ ∀ r, o.get [r, 0] = re r ∧ o.get [r, 1] = im r := by
  simp [ScatterState.fresh, ScatterState.update, ScatterState.initialize, rowAt, hv, hp, hb,
    ScatterState.interpolate, h0, h1, assignCol, emptyLike, hq, setCol]

-- test_interpolators_3d: for two queries the third component is not filled in (C32), so that
-- `np.isfinite` of it depends on the memory obtained from `np.empty_like`
example (sp : SciPy ℚ) (junk : List ℕ → ℚ) (p v q : NDArray ℚ) (re im z : ℕ → ℚ)
    (hp : p.shape = [3, 8]) (hv : v.shape = [3, 8]) (hq : q.shape = [2, 3])
    (hb : ∀ c, sp.scatterBuild .linear p (v.row c) = none)
    (h0 : sp.scatterCall .linear p (v.row 0) q = .ok re)
    (h1 : sp.scatterCall .linear p (v.row 1) q = .ok im)
    (_h2 : sp.scatterCall .linear p (v.row 2) q = .ok z) :
    ∃ o, (((ScatterState.fresh .linear).update sp v (some p)).1.interpolate sp junk q) = .ok o ∧
      o.shape = [2, 3] ∧ ∀ r, o.get [r, 0] = re r ∧ o.get [r, 1] = im r ∧
        o.get [r, 2] = junk [r, 2] := by
  simp [ScatterState.fresh, ScatterState.update, ScatterState.initialize, rowAt, hv, hp, hb,
    ScatterState.interpolate, h0, h1, assignCol, emptyLike, hq, setCol]

/-- `np.mgrid[0:1:3j, 0:1:3j]`, flattened. -/
def mgrid2 : NDArray ℚ := ⟨[2, 9], fun i =>
  if i.getD 0 0 = 0 then ((i.getD 1 0 / 3 : ℕ) : ℚ) / 2 else ((i.getD 1 0 % 3 : ℕ) : ℚ) / 2⟩

-- test_grid_interpolator_2d
example (sp : SciPy ℚ) (junk : List ℕ → ℚ) (q : NDArray ℚ) (re im : ℕ → ℚ)
    (hq : q.shape = [2, 2]) (hb : ∀ ax v, sp.gridBuild .linear ax v = none)
    (hc : ∀ v, sp.gridCall .linear [(0, 1, 3), (0, 1, 3)] v q =
      .ok (if v.get [1, 0] = 1 / 2 then re else im)) :
    ∃ o, (((GridState.fresh .linear [3, 3]).update sp mgrid2 (some mgrid2)).1.interpolate sp junk q)
      = .ok o ∧ o.shape = [2, 2] ∧ ∀ r, o.get [r, 0] = re r ∧ o.get [r, 1] = im r := by
  have a0 : gridAxis mgrid2 0 3 = .ok (0, 1, 3) := by decide +kernel
  have a1 : gridAxis mgrid2 1 3 = .ok (0, 1, 3) := by decide +kernel
  have s : mgrid2.shape = [2, 9] := rfl
  have g0 : mgrid2.get [0, 3] = 1 / 2 := by decide +kernel
  have g1 : mgrid2.get [1, 3] ≠ 1 / 2 := by decide +kernel
  simp [GridState.fresh, GridState.update, GridState.initialize, a0, a1, gridObject, rowAt, s,
    NDArray.reshapeC, hb, GridState.interpolate, gridCol, hc, assignCol, emptyLike, hq, setCol,
    decC, encC, NDArray.row] at g0 g1 ⊢
  simp [g0, g1]

-- test_create_interpolator_with_grid_shape
example : createInterpolator (K := ℚ) id "linear" (some [3, 3]) none =
    .ok (.grid (GridState.fresh .linear [3, 3])) := by
  simp [createInterpolator]

-- test_create_interpolator_returns_correct_type
example : createInterpolator (K := ℚ) id "cubic" none none =
    .ok (.scatter (ScatterState.fresh .cubic)) ∧
    createInterpolator (K := ℚ) id "linear" none none =
    .ok (.scatter (ScatterState.fresh .linear)) ∧
    createInterpolator (K := ℚ) id "nearest" none none =
    .ok (.scatter (ScatterState.fresh .nearest)) := by
  simp [createInterpolator]

-- test_create_interpolator_invalid_type
example : createInterpolator (K := ℚ) id "nonsense" none none = .error .valueError := by
  simp [createInterpolator]

/-! ## `tests/test_ftle.py` -/

-- test_compute_cauchy_green_2x2_matches_FT_FTt: the Jacobians of the fixture are symmetric, which
-- hides that the kernel computes `Fᵀ F` and not `F Fᵀ`
example : ∀ F ∈ [!![(2 : ℚ), 0; 0, 1], !![3/2, 1/2; 1/2, 3/2]],
    cauchyGreen2 F = F * F.transpose := by
  decide +kernel
example : cauchyGreen2 !![(1 : ℚ), 1; 0, 1] ≠ !![(1 : ℚ), 1; 0, 1] * !![(1 : ℚ), 1; 0, 1].transpose := by
  decide +kernel

-- test_compute_cauchy_green_3x3_matches_FT_FTt
example (F : Matrix (Fin 3) (Fin 3) ℝ) : cauchyGreen3 F = F * F.transpose := rfl

-- test_max_eigenvalue_2x2_matches_numpy: the eigenvalues of the fixture are 4, 1 and 4, 1
example : maxEig2 (cauchyGreen2 !![(2 : ℝ), 0; 0, 1]) = .fin 4 := by
  have h : disc2 4 (cauchyGreen2 !![(2 : ℝ), 0; 0, 1]) = 3 ^ 2 := by
    simp [disc2, trace2, cauchyGreen2]; norm_num
  have t : trace2 (cauchyGreen2 !![(2 : ℝ), 0; 0, 1]) = 5 := by
    simp [trace2, cauchyGreen2]; norm_num
  simp only [maxEig2, h, t, FVal.sqrt, Real.sqrt_sq (by norm_num : (0 : ℝ) ≤ 3)]
  norm_num
example : maxEig2 (cauchyGreen2 !![(3 / 2 : ℝ), 1 / 2; 1 / 2, 3 / 2]) = .fin 4 := by
  have h : disc2 4 (cauchyGreen2 !![(3 / 2 : ℝ), 1 / 2; 1 / 2, 3 / 2]) = 3 ^ 2 := by
    simp [disc2, trace2, cauchyGreen2]; norm_num
  have t : trace2 (cauchyGreen2 !![(3 / 2 : ℝ), 1 / 2; 1 / 2, 3 / 2]) = 5 := by
    simp [trace2, cauchyGreen2]; norm_num
  simp only [maxEig2, h, t, FVal.sqrt, Real.sqrt_sq (by norm_num : (0 : ℝ) ≤ 3)]
  norm_num

/-- The FTLE of a multiple of the identity. -/
theorem ftle_scalar (c : ℝ) (hc : 0 < c) :
    ftle2 [!![c, 0; 0, c]] 1 = .ok [.fin (Real.log c)] := by
  have h : disc2 4 (cauchyGreen2 !![c, 0; 0, c]) = 0 := by
    simp [disc2, trace2, cauchyGreen2]; ring
  have t : trace2 (cauchyGreen2 !![c, 0; 0, c]) = 2 * c ^ 2 := by
    simp [trace2, cauchyGreen2]; ring
  have e : maxEig2 (cauchyGreen2 !![c, 0; 0, c]) = .fin (c ^ 2) := by
    simp only [maxEig2, h, t, FVal.sqrt]
    norm_num
    ring
  have q : ¬ c ^ 2 < 0 := not_lt.2 (sq_nonneg c)
  simp [ftle2, e, recipPeriod, FVal.sqrt, FVal.log, FVal.smul, q, Real.sqrt_sq hc.le, hc.ne',
    not_lt.2 hc.le]

-- test_zero_deformation_returns_zero_ftle
example : ftle2 [!![1, 0; 0, 1]] 1 = .ok [.fin 0] := by
  simpa using ftle_scalar 1 one_pos

-- test_large_deformation_increases_ftle
example : ∃ a b, ftle2 [!![1, 0; 0, 1]] 1 = .ok [.fin a] ∧ ftle2 [!![2, 0; 0, 2]] 1 = .ok [.fin b] ∧
    a < b :=
  ⟨_, _, ftle_scalar 1 one_pos, ftle_scalar 2 two_pos, Real.log_lt_log one_pos one_lt_two⟩

end Verif.RepoTests
