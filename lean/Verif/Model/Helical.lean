import Verif.Model.Missing
import Verif.Model.Interpolate
import Mathlib.Analysis.SpecialFunctions.Complex.Arg

/-!
# Model of the velocity of `examples/01_Closed-form_velocity_helical.ipynb`

Line numbers are those of the notebook file.  Arithmetic is exact, with NaN: on the axis of the vortex
the code multiplies an infinity with zero.
-/

namespace Verif

open Miss

/-- The constants of `velocity_fn` (01_Closed-form_velocity_helical.ipynb:65-70): radius of the axis,
circulation, radius of the core, angular velocity and wavenumber. -/
structure Helix where
  R0 : ℝ
  Γ : ℝ
  σ : ℝ
  ω : ℝ
  k : ℝ

/-- The values in the notebook (:65-70). -/
noncomputable def notebookHelix : Helix := ⟨1, 5, 3 / 10, 2 * Real.pi / 2, 8 * Real.pi / 8⟩

/-- `np.arctan2(y, x)` of numbers: the angle of the point `(x, y)`.  (Signs of zeros are not modelled;
`arctan2(0, 0)` is `0`.) -/
noncomputable def arctan2 (y x : ℝ) : ℝ := Complex.arg ⟨x, y⟩

/-- The velocity at one point before it is scaled (:71-91).  At `R = 0` the quotient
`Gamma / (2 * np.pi * R)` is infinite and `1 - np.exp(0)` is zero, so that their product is NaN.  The
constants are taken to be positive; other divisions by zero are not modelled. -/
noncomputable def helicalAt (H : Helix) (t x y z : ℝ) : Miss ℝ × Miss ℝ × Miss ℝ :=
  let φ := H.ω * t
  let xc := H.R0 * Real.cos (H.k * z + φ)
  let yc := H.R0 * Real.sin (H.k * z + φ)
  let Xr := x - xc
  let Yr := y - yc
  let R := √(Xr ^ 2 + Yr ^ 2)
  let θ := arctan2 Yr Xr
  let vθ : Miss ℝ :=
    if R = 0 then nan
    else num (H.Γ / (2 * Real.pi * R) * (1 - Real.exp (-((R / H.σ) ^ 2))))
  let u := num (-1) * vθ * num (Real.sin θ)
  let v := vθ * num (Real.cos θ)
  let w := num (2 / 10 * H.Γ / (2 * Real.pi * H.R0) * Real.exp (-((R / H.σ) ^ 2)))
  (u, v, w)

/-- The same for numbers that may be NaN: sums, sines, cosines and exponentials of NaN are NaN. -/
noncomputable def helicalRow (H : Helix) : Miss ℝ → Miss ℝ → Miss ℝ → Miss ℝ →
    Miss ℝ × Miss ℝ × Miss ℝ
  | num t, num x, num y, num z => helicalAt H t x y z
  | _, _, _, _ => (nan, nan, nan)

/-- `np.sqrt(u**2 + v**2 + w**2)` (:93) at one point. -/
noncomputable def magnitude (v : Miss ℝ × Miss ℝ × Miss ℝ) : Miss ℝ :=
  match v.1 * v.1 + v.2.1 * v.2.1 + v.2.2 * v.2.2 with
  | num s => num √s
  | nan => nan

/-- `velocity_fn(t, coordinates)` (:40-102).  `scale = np.max(mag)` (:94) is taken over all rows of the
array; it raises `ValueError` if there are none.  `np.empty_like` leaves `junk` in columns other than
the first three; fewer columns, or no columns, raise `IndexError`.  (Arrays with more than two axes are
not modelled.) -/
noncomputable def helicalFn (junk : List ℕ → Miss ℝ) (H : Helix) : VelocityFn (Miss ℝ) := fun t q =>
  match q.shape with
  | [n, d] =>
    if d < 3 then .error .indexError
    else
      let row := fun r => helicalRow H t (q.get [r, 0]) (q.get [r, 1]) (q.get [r, 2])
      match npMax (⟨[n], fun idx => magnitude (row (idx.getD 0 0))⟩ : NDArray (Miss ℝ)) with
      | .error e => .error e
      | .ok scale => .ok ⟨[n, d], fun idx =>
          let v := row (idx.getD 0 0)
          if idx.getD 1 0 = 0 then v.1 / scale
          else if idx.getD 1 0 = 1 then v.2.1 / scale
          else if idx.getD 1 0 = 2 then v.2.2 / scale
          else junk idx⟩
  | _ => .error .indexError

end Verif
