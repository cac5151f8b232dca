import Verif.Lemmas.Memory
import Mathlib.Algebra.Order.Field.Basic

/-!
# Specification: other units and another origin

Lengths are measured in other units and from another origin, `x ↦ a x + b` (one `b` per axis), times
in other units, `t ↦ τ t`.  Velocities become `(a / τ) v`.  What a user has to do to the input of a
run: the files, the seeds, and the time step.
-/

namespace Verif

/-- Same shape and related values at every legal index. -/
def NDArray.RelBy {α β : Type*} (R : List ℕ → α → β → Prop) (a : NDArray α) (b : NDArray β) : Prop :=
  a.shape = b.shape ∧ ∀ idx, ValidIdx a.shape idx → R idx (a.get idx) (b.get idx)

variable {K F : Type} [Field K] [LinearOrder K] [IsStrictOrderedRing K]

/-- A change of units and origin. -/
structure Units (K : Type) [Field K] [LinearOrder K] where
  a : K
  τ : K
  b : ℕ → K
  a_pos : 0 < a
  τ_pos : 0 < τ

namespace Units
variable (U : Units K)

/-- A velocity array. -/
def vel (A : NDArray K) : NDArray K := A.map fun v => U.a / U.τ * v

/-- An array of coordinates along axis `j`. -/
def coord (j : ℕ) (A : NDArray K) : NDArray K := A.map fun x => U.a * x + U.b j

/-- An array of points, one per row. -/
def points (A : NDArray K) : NDArray K :=
  ⟨A.shape, fun idx => U.a * A.get idx + U.b (idx.getD 1 0)⟩

/-- A file: each variable is converted according to its meaning. -/
def file (f : MatFile K) : MatFile K := fun key =>
  if key = "velocity_x" ∨ key = "velocity_y" ∨ key = "velocity_z" then (f key).map U.vel
  else if key = "coordinate_x" then (f key).map (U.coord 0)
  else if key = "coordinate_y" then (f key).map (U.coord 1)
  else if key = "coordinate_z" then (f key).map (U.coord 2)
  else (f key).map U.points

/-- All files. -/
def files (fs : MatFS K) : MatFS K := fun path => (fs path).map U.file

/-! Related inputs and outputs -/

/-- Arrays multiplied by `c`. -/
def Scaled (c : K) : NDArray K → NDArray K → Prop := NDArray.RelBy fun _ x y => y = c * x

/-- Arrays of points. -/
def Moved : NDArray K → NDArray K → Prop :=
  NDArray.RelBy fun idx x y => y = U.a * x + U.b (idx.getD 1 0)

/-- Arrays of coordinates, one row per axis. -/
def Rows : NDArray K → NDArray K → Prop :=
  NDArray.RelBy fun idx x y => y = U.a * x + U.b (idx.getD 0 0)

/-- The unit of velocities. -/
abbrev c : K := U.a / U.τ

/-- The grid axes of `GridInterpolator`. -/
def axes (l : List (K × K × ℕ)) : List (K × K × ℕ) :=
  l.zipIdx.map fun (x, j) => (U.a * x.1 + U.b j, U.a * x.2.1 + U.b j, x.2.2)

variable {U}

/-- SciPy's interpolators, in exact arithmetic: they respond to a change of units and origin like
the data do. -/
structure Equivariant (U : Units K) (sp : SciPy K) : Prop where
  scatterBuild : ∀ m p p' v v', U.Rows p p' → Scaled U.c v v' →
    sp.scatterBuild m p' v' = sp.scatterBuild m p v
  scatterCall : ∀ m p p' v v' q q', U.Rows p p' → Scaled U.c v v' → U.Moved q q' →
    Py.Rel (fun f g : ℕ → K => ∀ r < q.shape.headD 0, g r = U.c * f r)
      (sp.scatterCall m p v q) (sp.scatterCall m p' v' q')
  gridBuild : ∀ m l v v', Scaled U.c v v' →
    sp.gridBuild m (U.axes l) v' = sp.gridBuild m l v
  gridCall : ∀ m l v v' q q', Scaled U.c v v' → U.Moved q q' →
    Py.Rel (fun f g : ℕ → K => ∀ r < q.shape.headD 0, g r = U.c * f r)
      (sp.gridCall m l v q) (sp.gridCall m (U.axes l) v' q')

/-- Both absent, or both present and related. -/
def OptRel {α β : Type*} (R : α → β → Prop) : Option α → Option β → Prop
  | none, none => True
  | some a, some b => R a b
  | _, _ => False

/-- A velocity function in other units. -/
def FnRel (U : Units K) (f f' : VelocityFn K) : Prop :=
  ∀ t q q', U.Moved q q' → Py.Rel (Scaled U.c) (f t q) (f' (U.τ * t) q')

/-- The interpolator assigns every column of its result for particles in `d` dimensions. -/
def Dims (d : ℕ) : AnyInterp K → Prop
  | .scatter _ => d = 2
  | .highPerf _ => True
  | .grid s => d = 2 ∨ (d = 3 ∧ s.gridShape.length = 3 ∧ (s.ix ≠ none → s.ndim = some 3))
  | .analytical _ => True

/-- For `HighPerfInterpolator`: coordinates have one row per grid dimension. -/
def RowsOk (I : AnyInterp K) (p : Option (NDArray K)) : Prop :=
  match I with
  | .highPerf s => ∀ x, p = some x → ∃ N, x.shape = [s.gridShape.length, N]
  | _ => True

/-- The interpolator calls SciPy. -/
def UsesSciPy : AnyInterp K → Prop
  | .scatter _ => True
  | .grid _ => True
  | _ => False

/-- Coordinate files have one row per dimension of the grid of a `HighPerfInterpolator`. -/
def CoordsOk (fs : MatFS K) (src : Source K) (I : AnyInterp K) : Prop :=
  match src with
  | .file s => ∀ path ∈ s.coordinateFiles, ∀ p, Verif.readCoordinate fs path = .ok p → RowsOk I (some p)
  | .analytical _ => True

/-- The FTLE kernels: a period `τ T` instead of `T` turns each value `x` into `φ x`. -/
structure Kernels (τ : K) (φ : F → F) (env : Env K F) : Prop where
  abs : ∀ x, env.abs (τ * x) = τ * env.abs x
  ftle2 : ∀ js T, Py.Rel (fun l l' => l' = l.map φ) (env.ftle2 js T) (env.ftle2 js (τ * T))
  ftle3 : ∀ js T, Py.Rel (fun l l' => l' = l.map φ) (env.ftle3 js T) (env.ftle3 js (τ * T))

/-- Observable effects in the two systems. -/
inductive EventRel (U : Units K) (φ : F → F) (id id' : String) : Event K F → Event K F → Prop
  | progress (i : ℕ) : EventRel U φ id id' (.progress id i) (.progress id' i)
  | done : EventRel U φ id id' (.done id) (.done id')
  | computed (l : List F) : EventRel U φ id id' (.computed l) (.computed (l.map φ))
  | written (l : List F) {c c' : NDArray K} (hc : U.Moved c c') :
      EventRel U φ id id' (.written ("ftle_" ++ id) l c) (.written ("ftle_" ++ id') (l.map φ) c')

/-- The writers of two runs: the second accepts what the first accepts. -/
def SameWriter (U : Units K) (φ : F → F) (w w' : WriteFn K F) : Prop :=
  ∀ name name' l c c', U.Moved c c' → w' name' (l.map φ) c' = w name l c

end Units

end Verif
