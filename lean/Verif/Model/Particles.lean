import Verif.Py.NDArray

/-!
# Model of `src/pyftle/particles.py`

Arithmetic is an arbitrary scalar type with `+`, `-`, `/` and the embedding of the
group size, so that the structural theorems also cover rounded arithmetic.
-/

namespace Verif

variable {K : Type*}

/-- The dataclass `NeighboringParticles` (particles.py:62-70): the (mutable) positions
and the fields filled in by `__post_init__`. -/
structure Particles (K : Type*) where
  positions : NDArray K
  initialDeltaTB : NDArray K
  initialDeltaRL : NDArray K
  initialDeltaFB : NDArray K
  initialCentroid : NDArray K
  numNeighbors : ℕ

/-- `compute_delta_right_left` (particles.py:153-171):
`left, right, *_ = np.split(positions, num_neighbors, axis=0); return right - left`.
Unpacking too few blocks raises `ValueError`. -/
def computeDeltaRL [Sub K] (positions : NDArray K) (nn : ℕ) : Py (NDArray K) :=
  match positions.split nn with
  | .error e => .error e
  | .ok (left :: right :: _) => NDArray.zipWith (· - ·) right left
  | .ok _ => .error .valueError

/-- `compute_delta_top_bottom` (particles.py:174-192):
`_, _, top, bottom, *_ = np.split(...); return top - bottom`. -/
def computeDeltaTB [Sub K] (positions : NDArray K) (nn : ℕ) : Py (NDArray K) :=
  match positions.split nn with
  | .error e => .error e
  | .ok (_ :: _ :: top :: bottom :: _) => NDArray.zipWith (· - ·) top bottom
  | .ok _ => .error .valueError

/-- `compute_delta_front_back` (particles.py:195-213):
`*_, front, back = np.split(...); return front - back` (the last two blocks). -/
def computeDeltaFB [Sub K] (positions : NDArray K) (nn : ℕ) : Py (NDArray K) :=
  match positions.split nn with
  | .error e => .error e
  | .ok parts =>
    match parts.reverse with
    | back :: front :: _ => NDArray.zipWith (· - ·) front back
    | _ => .error .valueError

/-- Sum of a non-empty list of equally shaped arrays, left to right
(`np.add.reduce(parts, axis=0)`). -/
def sumParts [Add K] (p : NDArray K) : List (NDArray K) → Py (NDArray K)
  | [] => .ok p
  | q :: qs =>
    match NDArray.zipWith (· + ·) p q with
    | .error e => .error e
    | .ok s => sumParts s qs

/-- `compute_centroid` (particles.py:216-237):
`np.mean(np.split(positions, num_neighbors, axis=0), axis=0)`, i.e. the sum of the
blocks divided by their number. -/
def computeCentroid [Add K] [Div K] [NatCast K] (positions : NDArray K) (nn : ℕ) :
    Py (NDArray K) :=
  match positions.split nn with
  | .error e => .error e
  | .ok [] => .error .valueError
  | .ok (p :: ps) =>
    match sumParts p ps with
    | .error e => .error e
    | .ok s => .ok (s.map fun x => x / (nn : K))

/-- `np.zeros(0)`: no elements at all (the index function is never consulted). -/
def emptyArray (a : NDArray K) : NDArray K := ⟨[0], a.get⟩

/-- `NeighboringParticles(positions)` with its `__post_init__`
(particles.py:72-93).  `positions.shape[1]` of an array with fewer than two axes
raises `IndexError`. -/
def mkParticles [Add K] [Sub K] [Div K] [NatCast K] (positions : NDArray K) :
    Py (Particles K) :=
  match positions.shape with
  | [] => .error .indexError
  | n :: rest =>
    if ¬ (n % 4 = 0 ∨ n % 6 = 0) then .error .assertionError
    else match rest with
      | [] => .error .indexError
      | d :: _ =>
        let nn := d * 2
        match computeDeltaTB positions nn with
        | .error e => .error e
        | .ok tb =>
          match computeDeltaRL positions nn with
          | .error e => .error e
          | .ok rl =>
            match (if d = 3 then computeDeltaFB positions nn
                   else .ok (emptyArray positions)) with
            | .error e => .error e
            | .ok fb =>
              match computeCentroid positions nn with
              | .error e => .error e
              | .ok c =>
                .ok { positions := positions, initialDeltaTB := tb, initialDeltaRL := rl,
                      initialDeltaFB := fb, initialCentroid := c, numNeighbors := nn }

/-- `__len__` (particles.py:95-97): `positions.shape[0] // num_neighbors`.
(Python would raise for `num_neighbors = 0`, which construction excludes.) -/
def Particles.len (p : Particles K) : ℕ := p.positions.shape.headD 0 / p.numNeighbors

/-- property `delta_right_left` (particles.py:112-123). -/
def Particles.deltaRL [Sub K] (p : Particles K) : Py (NDArray K) :=
  computeDeltaRL p.positions p.numNeighbors

/-- property `delta_top_bottom` (particles.py:99-110). -/
def Particles.deltaTB [Sub K] (p : Particles K) : Py (NDArray K) :=
  computeDeltaTB p.positions p.numNeighbors

/-- property `delta_front_back` (particles.py:125-137). -/
def Particles.deltaFB [Sub K] (p : Particles K) : Py (NDArray K) :=
  computeDeltaFB p.positions p.numNeighbors

/-- property `centroid` (particles.py:139-150). -/
def Particles.centroid [Add K] [Div K] [NatCast K] (p : Particles K) : Py (NDArray K) :=
  computeCentroid p.positions p.numNeighbors

end Verif
