import Verif.Model.FileReaders
import Verif.Model.Api
import Mathlib.Analysis.SpecialFunctions.Trigonometric.Basic

/-!
# Model of the example notebooks `examples/*.ipynb`

Line numbers are those of the notebook files.  Plots are not modelled, except for the array that is
shown (`imshow`) or attached to the points of a grid (`pv.StructuredGrid`).  `np.linspace` is not
modelled: the axes are arbitrary 1-D arrays.
-/

namespace Verif

namespace NDArray

variable {α β : Type*}

/-- `X, Y = np.meshgrid(x, y)` for 1-D arrays (default `indexing="xy"`): both results have one row for
every entry of `y`. -/
def meshgrid (x y : NDArray α) : NDArray α × NDArray α :=
  (⟨[y.size, x.size], fun idx => x.get [idx.getD 1 0]⟩,
   ⟨[y.size, x.size], fun idx => y.get [idx.getD 0 0]⟩)

/-- `X, Y, Z = np.meshgrid(x, y, z, indexing="ij")` for 1-D arrays. -/
def meshgridIJ (x y z : NDArray α) : NDArray α × NDArray α × NDArray α :=
  (⟨[x.size, y.size, z.size], fun idx => x.get [idx.getD 0 0]⟩,
   ⟨[x.size, y.size, z.size], fun idx => y.get [idx.getD 1 0]⟩,
   ⟨[x.size, y.size, z.size], fun idx => z.get [idx.getD 2 0]⟩)

/-- `np.column_stack((a, b, ...))` for 1-D arrays: they become the columns of a 2-D array; different
lengths raise `ValueError`.  (2-D arguments, which NumPy takes as they are, do not occur; they are
rejected here.) -/
def columnStack (a : NDArray α) (rest : List (NDArray α)) : Py (NDArray α) :=
  match a.shape with
  | [n] =>
    if ∀ b ∈ rest, b.shape = [n] then
      .ok ⟨[n, rest.length + 1], fun idx => ((a :: rest).getD (idx.getD 1 0) a).get [idx.getD 0 0]⟩
    else .error .valueError
  | _ => .error .valueError

/-- `a ∘ np.array(row)` for a 2-D array: the operation is applied to every row.  (Only a row as long
as those of `a`; one-element rows, which NumPy repeats, do not occur.) -/
def withRow (f : α → β → α) (a : NDArray α) (row : List β) : Py (NDArray α) :=
  match a.shape with
  | [n, d] =>
    if h : d = row.length then
      .ok ⟨[n, d], fun idx =>
        if hc : idx.getD 1 0 < d then f (a.get idx) (row[idx.getD 1 0]'(h ▸ hc)) else a.get idx⟩
    else .error .valueError
  | _ => .error .valueError

/-- `np.stack((a, b, ...), axis=1)` of equally shaped arrays: a new second axis.  Arrays without an
axis raise `AxisError`, a `ValueError`. -/
def stack1 (a : NDArray α) (rest : List (NDArray α)) : Py (NDArray α) :=
  match a.shape with
  | [] => .error .valueError
  | n :: sh =>
    if ∀ b ∈ rest, b.shape = a.shape then
      .ok ⟨n :: (rest.length + 1) :: sh, fun idx =>
        match idx with
        | r :: c :: is => ((a :: rest).getD c a).get (r :: is)
        | _ => a.get idx⟩
    else .error .valueError

/-- `a.reshape(-1, d, order="F")`: the number of rows is found from the size. -/
def reshapeRowsF (a : NDArray α) (d : ℕ) : Py (NDArray α) :=
  if d = 0 ∨ a.size % d ≠ 0 then .error .valueError else a.reshapeF [a.size / d, d]

end NDArray

variable {K : Type}

/-- A Python dictionary of arrays. -/
abbrev ArrayDict (K : Type) := List (String × NDArray K)

/-- `d[key]`. -/
def ArrayDict.item (d : ArrayDict K) (key : String) : Py (NDArray K) :=
  match d.lookup key with
  | some a => .ok a
  | none => .error .keyError

/-- What `loadmat` finds in a file that `savemat(file, d)` has written: 1-D arrays have become rows
(`oned_as='row'`), scalars 1 × 1 arrays. -/
def savedMat (d : ArrayDict K) : MatFile K := fun key =>
  (d.lookup key).map fun a =>
    match a.shape with
    | [] => ⟨[1, 1], fun _ => a.get []⟩
    | [n] => ⟨[1, n], fun idx => a.get [idx.getD 1 0]⟩
    | _ => a

section seeds
variable [Zero K] [Add K] [Sub K]

/-- The four blocks of points around the centres `(x_i, y_j)`: the dictionary `p` of
01_Closed-form_velocity.ipynb:260-275 and `particles_data` of 02_File-based_IO.ipynb:226-241. -/
def crossDict2 (x y : NDArray K) (spacing : K) : Py (ArrayDict K) :=
  let (xc, yc) := NDArray.meshgrid x y
  match NDArray.columnStack xc.ravelC [yc.ravelC] with
  | .error e => .error e
  | .ok central =>
    match central.withRow (· + ·) [0, spacing] with
    | .error e => .error e
    | .ok top =>
      match central.withRow (· - ·) [0, spacing] with
      | .error e => .error e
      | .ok bottom =>
        match central.withRow (· - ·) [spacing, 0] with
        | .error e => .error e
        | .ok left =>
          match central.withRow (· + ·) [spacing, 0] with
          | .error e => .error e
          | .ok right =>
            .ok [("top", top), ("bottom", bottom), ("left", left), ("right", right)]

/-- The array `positions` of 01_Closed-form_velocity.ipynb:277-279. -/
def crossPositions2 (p : ArrayDict K) : Py (NDArray K) :=
  match p.item "left" with
  | .error e => .error e
  | .ok left =>
    match p.item "right" with
    | .error e => .error e
    | .ok right =>
      match p.item "top" with
      | .error e => .error e
      | .ok top =>
        match p.item "bottom" with
        | .error e => .error e
        | .ok bottom =>
          match NDArray.stack1 left [right, top, bottom] with
          | .error e => .error e
          | .ok a => a.reshapeRowsF 2

/-- The six blocks of points around the centres `(x_i, y_j, z_k)`: the dictionary `particles` of
01_Closed-form_velocity_helical.ipynb:322-341. -/
def crossDict3 (x y z : NDArray K) (delta : K) : Py (ArrayDict K) :=
  let (xc, yc, zc) := NDArray.meshgridIJ x y z
  let plus := fun a : NDArray K => (a.map (· + delta)).ravelC
  let minus := fun a : NDArray K => (a.map (· - delta)).ravelC
  match NDArray.columnStack xc.ravelC [plus yc, zc.ravelC] with
  | .error e => .error e
  | .ok top =>
    match NDArray.columnStack xc.ravelC [minus yc, zc.ravelC] with
    | .error e => .error e
    | .ok bottom =>
      match NDArray.columnStack (minus xc) [yc.ravelC, zc.ravelC] with
      | .error e => .error e
      | .ok left =>
        match NDArray.columnStack (plus xc) [yc.ravelC, zc.ravelC] with
        | .error e => .error e
        | .ok right =>
          match NDArray.columnStack xc.ravelC [yc.ravelC, plus zc] with
          | .error e => .error e
          | .ok front =>
            match NDArray.columnStack xc.ravelC [yc.ravelC, minus zc] with
            | .error e => .error e
            | .ok back =>
              .ok [("top", top), ("bottom", bottom), ("left", left), ("right", right),
                ("front", front), ("back", back)]

/-- The array `positions` of 01_Closed-form_velocity_helical.ipynb:344-346. -/
def crossPositions3 (p : ArrayDict K) : Py (NDArray K) :=
  match p.item "left" with
  | .error e => .error e
  | .ok left =>
    match p.item "right" with
    | .error e => .error e
    | .ok right =>
      match p.item "top" with
      | .error e => .error e
      | .ok top =>
        match p.item "bottom" with
        | .error e => .error e
        | .ok bottom =>
          match p.item "front" with
          | .error e => .error e
          | .ok front =>
            match p.item "back" with
            | .error e => .error e
            | .ok back =>
              match NDArray.stack1 left [right, top, bottom, front, back] with
              | .error e => .error e
              | .ok a => a.reshapeRowsF 3

end seeds

section pictures
variable {F : Type} [Inhabited F]

/-- `ftle_field.reshape(Xc.shape)` (01_Closed-form_velocity.ipynb:350 and :412): what `imshow` is
given. -/
def picture (x y : NDArray K) (field : List F) : Py (NDArray F) :=
  (arrayOfList field).reshapeC (NDArray.meshgrid x y).1.shape

/-- `grid = pv.StructuredGrid(Xc, Yc, Zc); grid['ftle'] = ftle.ravel(order="F")`
(01_Closed-form_velocity_helical.ipynb:456-458): the points of the grid with their values.  PyVista
takes the points in Fortran order of the arrays; an array of a wrong length raises `ValueError`. -/
def notebookPoints (x y z : NDArray K) (field : List F) : Py (List (F × List K)) :=
  let (xc, yc, zc) := NDArray.meshgridIJ x y z
  match (arrayOfList field).reshapeC xc.shape with
  | .error e => .error e
  | .ok ftle =>
    if ftle.size ≠ xc.size then .error .valueError
    else .ok ((List.range xc.size).map fun k =>
      (ftle.ravelF.get [k], [xc.ravelF.get [k], yc.ravelF.get [k], zc.ravelF.get [k]]))

end pictures

/-- The velocity of the double gyre at one point (01_Closed-form_velocity.ipynb:52-61,
02_File-based_IO.ipynb:173-184), in exact arithmetic. -/
noncomputable def doubleGyreAt (A ε ω t x y : ℝ) : ℝ × ℝ :=
  let f := ε * Real.sin (ω * t) * x ^ 2 + (1 - 2 * ε * Real.sin (ω * t)) * x
  let dfdx := 2 * ε * Real.sin (ω * t) * x + (1 - 2 * ε * Real.sin (ω * t))
  (-Real.pi * A * Real.sin (Real.pi * f) * Real.cos (Real.pi * y),
    Real.pi * A * Real.cos (Real.pi * f) * Real.sin (Real.pi * y) * dfdx)

/-- `velocity_fn(t, coordinates)` of 01_Closed-form_velocity.ipynb:46-63.  `np.empty_like` leaves
`junk` in columns other than the first two; fewer columns, or no columns, raise `IndexError`. (Arrays
with more than two axes are not modelled.) -/
noncomputable def doubleGyreFn (junk : List ℕ → ℝ) (A ε ω : ℝ) : VelocityFn ℝ := fun t q =>
  match q.shape with
  | [n, d] =>
    if d < 2 then .error .indexError
    else .ok ⟨[n, d], fun idx =>
      let v := doubleGyreAt A ε ω t (q.get [idx.getD 0 0, 0]) (q.get [idx.getD 0 0, 1])
      if idx.getD 1 0 = 0 then v.1 else if idx.getD 1 0 = 1 then v.2 else junk idx⟩
  | _ => .error .indexError

end Verif
