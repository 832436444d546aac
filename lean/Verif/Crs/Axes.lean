import Verif.Py.Str
import Mathlib.Tactic.Ring
import Mathlib.Tactic.FieldSimp
import Mathlib.Tactic.Linarith
import Mathlib.Algebra.Order.Ring.Abs
import Mathlib.Algebra.Order.Field.Basic

/-! # Axis orders (crs.py:25-32, 183-191, 538-549; olio/xml_et.py:618-643)

The six axis orders are an enumeration; other strings, which raise KeyError or AssertionError, are not modelled. -/

namespace Verif.Crs
open Verif.Py

/-- crs.py:44-45 `valid_axis_orders` -/
inductive Axis where
  | en | ne | ws | sw | nw | wn
deriving DecidableEq, Repr

/-- a two by two matrix, by rows; for `reordering` (crs.py:25-32) -/
structure M2 where
  a : Int
  b : Int
  c : Int
  d : Int
deriving DecidableEq, Repr

/-- crs.py:25-32 `axis_reordering` -/
def reordering : Axis → M2
  | .en => ⟨1, 0, 0, 1⟩
  | .ne => ⟨0, 1, 1, 0⟩
  | .ws => ⟨-1, 0, 0, -1⟩
  | .sw => ⟨0, -1, -1, 0⟩
  | .nw => ⟨0, 1, -1, 0⟩
  | .wn => ⟨-1, 0, 0, 1⟩

/-- matrix transpose; for `switchAxes` (crs.py:538-541) -/
def M2.t (m : M2) : M2 := ⟨m.a, m.c, m.b, m.d⟩

/-- matrix product; for `switchAxes` (crs.py:538-541) -/
def M2.mul (m n : M2) : M2 :=
  ⟨m.a * n.a + m.b * n.c, m.a * n.b + m.b * n.d, m.c * n.a + m.d * n.c, m.c * n.b + m.d * n.d⟩

variable {K : Type} [CommRing K]

/-- row vector times matrix; for `switchAxes` (crs.py:538-541) -/
def rowMul (p : K × K) (m : M2) : K × K := (p.1 * m.a + p.2 * m.c, p.1 * m.b + p.2 * m.d)

/-- crs.py:538-541 `switch_axes` -/
def switchAxes (fromOrder toOrder : Axis) (p : K × K) : K × K :=
  rowMul p ((reordering toOrder).t.mul (reordering fromOrder))

/-- crs.py:544-549 `switch_axes_array`: the x, y part of each point of an array -/
def switchAxesArray (fromOrder toOrder : Axis) (ps : List (K × K × K)) : List (K × K × K) :=
  let m := (reordering toOrder).t.mul (reordering fromOrder)
  ps.map fun p => let q := rowMul (p.1, p.2.1) m; (q.1, q.2, p.2.2)

/-- crs.py:183-186 `is_right_handed_xy` -/
def rightHandedXy (o : Axis) : Bool := o = .ne || o = .sw || o = .wn

/-- crs.py:188-191 `is_right_handed_xyz` -/
def rightHandedXyz (o : Axis) (zIncDown : Bool) : Bool := rightHandedXy o == zIncDown

/-- for `xyzHandedness` (xml_et.py:618-643) -/
inductive Hand where
  | left | right
deriving DecidableEq, Repr

/-- olio/xml_et.py:618-643 `xyz_handedness` for the six valid orders -/
def xyzHandedness (o : Axis) (zIncDown : Bool) : Hand :=
  let rightHanded := if o = .en ∨ o = .ws ∨ o = .nw then !zIncDown else zIncDown
  if rightHanded then .right else .left

end Verif.Crs
