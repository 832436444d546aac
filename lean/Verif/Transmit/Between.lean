import Verif.Py.Basic
import Mathlib.Algebra.Order.Field.Basic

/-!
# Model: transmissibilities between neighbouring cells

`resqpy/grid/_transmissibility.py:18-402`, with the arrays cached by the grid object.  Numbers are exact; not-a-number is `none` in
half cell values and does not occur in stored properties.  Division by zero gives zero here: with a tolerance above zero it does not
occur.
-/

namespace Verif.Transmit
open Verif.Py

/-- the axes of a grid (_transmissibility.py:41-42) -/
inductive Dir where
  | K | J | I
  deriving DecidableEq

/-- half cell values by cell, axis and whether of the plus face: shape `(nk, nj, ni, 3, 2)` (_transmissibility.py:365-368) -/
abbrev Half (K : Type) := Nat → Nat → Nat → Dir → Bool → Option K

/-- an array with one more entry along its own axis than there are cells (_transmissibility.py:41-42) -/
abbrev Faces (K : Type) := Nat → Nat → Nat → K

/-- `modifier_mode` (_transmissibility.py:30-38) -/
inductive Mode where
  | none | facesMultiplier | facesPerCellMultiplier | absolute
  deriving DecidableEq

/-- what is fixed for a grid: extent, K gaps and split column faces, by the index of the lower cell (`k_gap_after_array`,
`split_column_faces`; _transmissibility.py:142-145, 293-294); and whether it is a `RegularGrid` -/
structure Shape where
  regular : Bool
  nk : Nat
  nj : Nat
  ni : Nat
  gapAfter : Nat → Bool
  splitJ : Nat → Nat → Bool
  splitI : Nat → Nat → Bool

/-- what searches of the property collection find for one realization: transmissibilities by direction or as one array
(_transmissibility.py:81-133), whether there are multipliers and absolute values by direction (or as one array) and by faces per cell
(167-171, 189-222, 241-277, 296-341), whether there are half cell values (386-390); and the half cell values as calculated, for a
tolerance (397) -/
structure Found (K : Type) where
  tr : Dir → Option (Faces K)
  composite : Option (Nat → K)
  mult : Dir → Bool
  abs : Dir → Bool
  halfMult : Bool
  halfProp : Bool
  half : K → Res (Half K)

/-- attributes of the grid object: cached arrays, and whether the property collection has been extracted; for `halfCellTransmissibility` (_transmissibility.py:353-402) -/
structure Cache (K : Type) where
  half : Option (Half K)
  k : Option (Faces K)
  j : Option (Faces K)
  i : Option (Faces K)
  pc : Bool

variable {K : Type} [Field K] [LinearOrder K]

/-- _transmissibility.py:291-294, 347 for one face, with no multiplier or absolute value: `masked` for K gaps and split columns -/
def faceT' (tol : K) (masked : Bool) (a b : Option K) : K :=
  match a, b with
  | some x, some y => if masked = true ∨ x < tol ∨ y < tol then 0 else 1 / (1 / x + 0 + 1 / y)
  | _, _ => 0

/-- _transmissibility.py:181-187, 228 (I), 233-239, 281 (J), 288-294, 347 (K): the array for one axis, zero at the outer faces -/
def facesFor (s : Shape) (tol : K) (half : Half K) : Dir → Faces K
  | .K => fun k j i => if k = 0 ∨ s.nk ≤ k then 0 else faceT' tol (s.gapAfter (k - 1)) (half (k - 1) j i .K true) (half k j i .K false)
  | .J => fun k j i => if j = 0 ∨ s.nj ≤ j then 0 else faceT' tol (s.splitJ (j - 1) i) (half k (j - 1) i .J true) (half k j i .J false)
  | .I => fun k j i => if i = 0 ∨ s.ni ≤ i then 0 else faceT' tol (s.splitI j (i - 1)) (half k j (i - 1) .I true) (half k j i .I false)

/-- _transmissibility.py:180-229, 232-284, 287-350 for one axis: an array of multipliers or of absolute values has the shape of all
faces and is combined with that of the internal faces (228, 281, 347), which fails for any extent: ValueError -/
def setAxis (s : Shape) (tol : K) (mode : Mode) (f : Found K) (half : Half K) (d : Dir) : Res (Faces K) :=
  if mode = .facesMultiplier ∧ f.mult d = true then .error .value
  else if mode = .absolute ∧ f.abs d = true then .error .value
  else .ok (facesFor s tol half d)

/-- _transmissibility.py:353-402 `half_cell_transmissibility`: the tolerance given is not passed on (397), the default of
`half_cell_t` is used.  A property found is tested as a truth value (391): ValueError.  The collection is not extracted (385).  For a
regular grid _regular_grid.py:349-387: no property is looked for. -/
def halfCellTransmissibility (s : Shape) (f : Found K) (useProperty realNone : Bool) (_tolerance : K) (c : Cache K) : Res (Half K) × Cache K :=
  match (if realNone then c.half else none) with
  | some h => (.ok h, c)
  | none =>
    if s.regular = false ∧ useProperty = true ∧ c.pc = false then (.error .attribute, c)
    else if s.regular = false ∧ useProperty = true ∧ f.halfProp = true then (.error .value, c)
    else
      match f.half (1 / 1000000) with
      | .error e => (.error e, c)
      | .ok h => (.ok h, if realNone then { c with half := some h } else c)

/-- the part of an array of all faces for one axis (_transmissibility.py:95-96, 110-113, 127-129) -/
def compositePart (s : Shape) (a : Nat → K) : Dir → Faces K
  | .K => fun k j i => a ((k * s.nj + j) * s.ni + i)
  | .J => fun k j i => a ((s.nk + 1) * s.nj * s.ni + ((k * (s.nj + 1) + j) * s.ni + i))
  | .I => fun k j i => a ((s.nk + 1) * s.nj * s.ni + s.nk * (s.nj + 1) * s.ni + ((k * s.nj + j) * (s.ni + 1) + i))

/-- the property for one axis: by direction, or else its part of the array of all faces (_transmissibility.py:81-129) -/
def stored (s : Shape) (f : Found K) (d : Dir) : Option (Faces K) :=
  match f.tr d with
  | some a => some a
  | none => f.composite.map fun a => compositePart s a d

/-- the array for an axis if not there yet (_transmissibility.py:149-158) -/
def orSet (s : Shape) (tol : K) (mode : Mode) (f : Found K) (half : Half K) (d : Dir) : Option (Faces K) → Res (Faces K)
  | some a => .ok a
  | none => setAxis s tol mode f half d

/-- _transmissibility.py:18-162 `transmissibility`.  `pc` has no value where transmissibility properties are not to be used and is
passed on (140, 150-158): UnboundLocalError.  A multiplier by faces per cell has shape `(nk, nj, ni, 6)` and is combined with half cell values
(176): ValueError. -/
def transmissibility (s : Shape) (tol : K) (useTr realNone : Bool) (mode : Mode) (f : Found K) (c : Cache K) :
    Res (Faces K × Faces K × Faces K) × Cache K :=
  let k0 := if realNone then c.k else none
  let j0 := if realNone then c.j else none
  let i0 := if realNone then c.i else none
  match k0, j0, i0 with
  | some k, some j, some i => (.ok (k, j, i), c)
  | _, _, _ =>
    let c1 := if useTr then { c with pc := true } else c
    let k1 := if useTr then k0.or (stored s f .K) else k0
    let j1 := if useTr then j0.or (stored s f .J) else j0
    let i1 := if useTr then i0.or (stored s f .I) else i0
    let c2 := if realNone then { c1 with k := k1, j := j1, i := i1 } else c1
    match k1, j1, i1 with
    | some k, some j, some i => (.ok (k, j, i), c2)
    | _, _, _ =>
      match halfCellTransmissibility s f useTr realNone (1 / 1000000) c2 with
      | (.error e, c3) => (.error e, c3)
      | (.ok half, c3) =>
        if useTr = false then (.error .unbound, c3)
        else if mode = .facesPerCellMultiplier ∧ f.halfMult = true then (.error .value, c3)
        else
          match orSet s tol mode f half .K k1 with
          | .error e => (.error e, c3)
          | .ok k =>
            let c4 := if realNone then { c3 with k := some k } else c3
            match orSet s tol mode f half .J j1 with
            | .error e => (.error e, c4)
            | .ok j =>
              let c5 := if realNone then { c4 with j := some j } else c4
              match orSet s tol mode f half .I i1 with
              | .error e => (.error e, c5)
              | .ok i => (.ok (k, j, i), c5)

end Verif.Transmit
