import Verif.Model.Ftle
import Verif.Model.Integrate
import Verif.Lemmas.Swap
import Mathlib.Analysis.SpecialFunctions.Log.Basic
import Mathlib.Analysis.Real.Sqrt

/-!
# The 2-D kernels of `src/pyftle/ftle.py` in binary64

The same lines as in `Model/Ftle.lean`, every operation rounded.  `np.sqrt` and `np.log` are
parameters (`Libm`); `Libm.Accurate` states what is assumed of them.  Overflow is not modelled:
`Fl` has no largest number (see `Spec/Binary64.lean`).
-/

namespace Verif

instance : One Fl := ⟨⟨1⟩⟩
instance : IntCast Fl := ⟨fun n => ⟨rne n⟩⟩
instance : Max Fl := ⟨fun a b => if a.val ≤ b.val then b else a⟩
instance : Min Fl := ⟨fun a b => if a.val ≤ b.val then a else b⟩
instance : LT Fl := ⟨fun a b => a.val < b.val⟩
instance : DecidableLT Fl := fun a b => inferInstanceAs (Decidable (a.val < b.val))
instance : NumLits Fl := ⟨⟨1 / 2⟩, ⟨3 / 2⟩, ⟨2⟩, ⟨6⟩⟩

/-- The real number a binary64 number stands for. -/
noncomputable def Fl.re (x : Fl) : ℝ := (x.val : ℝ)

/-- `np.sqrt` of a non-negative and `np.log` of a positive number. -/
structure Libm where
  sqrt : Fl → Fl
  log : Fl → Fl

/-- Contract: the square root is accurate to one rounding, the logarithm to a relative error `κ`
(`2^-52` for a library with errors below one unit in the last place). -/
structure Libm.Accurate (m : Libm) (κ : ℝ) : Prop where
  sqrt : ∀ x : Fl, 0 ≤ x.re → |(m.sqrt x).re - √x.re| ≤ 2 ^ (-53 : ℤ) * √x.re
  log : ∀ x : Fl, 0 < x.re → |(m.log x).re - Real.log x.re| ≤ κ * |Real.log x.re|

/-- A value of a binary64 array. -/
inductive Val64 where
  | fin (x : Fl)
  | posInf
  | negInf
  | nan

/-- (For array entries that are never read.) -/
instance : Inhabited Val64 := ⟨.nan⟩

namespace Val64

/-- `np.sqrt`: NaN for negative arguments. -/
def sqrt (m : Libm) : Val64 → Val64
  | fin x => if x.val < 0 then nan else fin (m.sqrt x)
  | posInf => posInf
  | negInf => nan
  | nan => nan

/-- `np.log`: `-inf` at 0, NaN for negative arguments. -/
def log (m : Libm) : Val64 → Val64
  | fin x => if x.val < 0 then nan else if x.val = 0 then negInf else fin (m.log x)
  | posInf => posInf
  | negInf => nan
  | nan => nan

/-- Multiplication by a finite scalar. -/
def smul (c : Fl) : Val64 → Val64
  | fin x => fin (c * x)
  | posInf => if c.val < 0 then negInf else if c.val = 0 then nan else posInf
  | negInf => if c.val < 0 then posInf else if c.val = 0 then nan else negInf
  | nan => nan

end Val64

/-- Loop body of `max_eigenvalue_2x2` (ftle.py:149-161) in binary64.  With a NaN both candidates
are NaN and so is their maximum. -/
def maxEig64 (m : Libm) (C : Matrix (Fin 2) (Fin 2) Fl) : Val64 :=
  match Val64.sqrt m (.fin (disc2 ⟨4⟩ C)) with
  | .fin s => .fin (max (NumLits.half * (trace2 C + s)) (NumLits.half * (trace2 C - s)))
  | _ => .nan

/-- `compute_ftle_2x2` (ftle.py:196-198) in binary64; `1 / map_period` raises for a zero period. -/
def ftle64 (m : Libm) (Js : List (Matrix (Fin 2) (Fin 2) Fl)) (T : Fl) : Py (List Val64) :=
  let eigs := (Js.map cauchyGreen2).map (maxEig64 m)
  if T.val = 0 then .error .zeroDivisionError
  else .ok (eigs.map fun l => Val64.smul (1 / T) (Val64.log m (Val64.sqrt m l)))

end Verif
