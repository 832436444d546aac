import Verif.FineCoarse.Model
import Mathlib.Algebra.Order.Floor.Ring
import Mathlib.Algebra.Order.Floor.Semiring
import Mathlib.Algebra.Order.Field.Basic
import Mathlib.Algebra.Order.Field.Rat
import Mathlib.Data.Rat.Floor

/-!
# Model of `tartan_refinement` in `resqpy/olio/fine_coarse.py`

Floats are elements of an ordered field with floor (for instance the rationals or the reals).
-/

namespace Verif.FineCoarse
open Verif.Py Verif.Box

variable {K : Type} [Field K] [LinearOrder K] [FloorRing K]

/-- `np.around(x).astype(int)`: round to nearest, halves to even; for `tartanLoop` (fine_coarse.py:468-479) -/
def around (x : K) : Int :=
  if x - (⌊x⌋ : K) < 1 / 2 then ⌊x⌋
  else if 1 / 2 < x - (⌊x⌋ : K) then ⌊x⌋ + 1
  else if ⌊x⌋ % 2 = 0 then ⌊x⌋ else ⌊x⌋ + 1

/-- One decay step, fine_coarse.py:463-466 and 475-478: `linear` subtracts, `exponential` multiplies. -/
def decay (linear : Bool) (rate x : K) : K := if linear then x - rate else x * rate

/-- the `while` loop at fine_coarse.py:468-479; the first argument bounds the number of iterations
(each one widens the slice range, so the coarse extent suffices: see `tartanLoop_spec`) -/
def tartanLoop (linear : Bool) (n : Int) (rate0 rate1 : K) :
    Nat → Int → Int → K → K → List Int → List Int
  | 0, _, _, _, _, ratios => ratios
  | fuel + 1, a, b, x, y, ratios =>
    if (around x > 1 ∨ around y > 1) ∧ (a > 0 ∨ b < n - 1) then
      let ratios := if a - 1 ≥ 0 then ratios.set (a - 1).toNat (around x) else ratios
      let ratios := if b + 1 < n then ratios.set (b + 1).toNat (around y) else ratios
      tartanLoop linear n rate0 rate1 fuel (a - 1) (b + 1) (decay linear rate0 x) (decay linear rate1 y) ratios
    else ratios

/-- fine_coarse.py:459-480 body of the axis loop: the refinement ratios of one axis.  `n` coarse
extent, `a`..`b` fovea slices, `f` fovea ratio, `rate0`, `rate1` decay rates on the two sides. -/
def tartanAxis (linear : Bool) (n a b f : Int) (rate0 rate1 : K) : List Int :=
  tartanLoop linear n rate0 rate1 n.toNat a b (decay linear rate0 (f : K)) (decay linear rate1 (f : K))
    (pySetSlice (List.replicate n.toNat 1) a (b + 1) f)

/-- fine_coarse.py:440-446 default decay rate in `linear` mode on a side where the fovea is `d` slices
from the grid boundary: `border` is `d + 0.5` on either side -/
def defaultLinearRate (f d : Int) : K := ((f : K) - 1) / ((d : K) + 1 / 2)

end Verif.FineCoarse
