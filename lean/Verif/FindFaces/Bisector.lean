import Verif.Py.Basic
import Mathlib.Data.Fin.Tuple.Basic
import Mathlib.Data.Fin.VecNotation
import Mathlib.Data.Fintype.Basic
import Mathlib.Data.Rat.Defs
import Mathlib.Algebra.Order.Ring.Rat

/-! # Model of the bisection of a grid by faces

`resqpy/grid_surface/_find_faces.py`: `bisector_from_face_indices`, `bisector_from_faces`, `column_bisector_from_face_indices` and
`column_bisector_from_faces`, with what they call.  Cells have an index for each of `D` axes: three (k, j, i), or two in the case of
columns.  An internal face is given by its axis and the cell before it.  Arrays of booleans are lists of the cells with true, or functions. -/

namespace Verif.FindFaces
open Verif.Py

/-- for `spreads` (_find_faces.py:1906-1911) -/
abbrev Cell (D : Nat) := Fin D → Nat

variable {D : Nat}

/-- the next cell along an axis; for `spreads` (_find_faces.py:1906-1911) -/
def next (c : Cell D) (ax : Fin D) : Cell D := Function.update c ax (c ax + 1)

/-- the previous cell along an axis; for `spreads` (_find_faces.py:1906-1911) -/
def prev (c : Cell D) (ax : Fin D) : Cell D := Function.update c ax (c ax - 1)

/-- all cells of an array of a given shape, in the order of nested loops; for `sweep` (_find_faces.py:1899-1914) -/
def cells : {D : Nat} → Cell D → List (Cell D)
  | 0, _ => [Fin.elim0]
  | _ + 1, n => (List.range (n 0)).flatMap fun x => (cells (Fin.tail n)).map (Fin.cons x)

/-- _find_faces.py:1906-1911: a neighbour is set, with no face between -/
def spreads (n : Cell D) (isOpen : Fin D → Cell D → Bool) (set : List (Cell D)) (c : Cell D) : Bool :=
  (List.finRange D).any (fun ax => decide (c ax ≠ 0) && set.contains (prev c ax) && isOpen ax (prev c ax)) ||
    (List.finRange D).any (fun ax => decide (c ax < n ax - 1) && set.contains (next c ax) && isOpen ax c)

/-- _find_faces.py:1899-1914: once through all cells, each of which is set in place -/
def sweep (n : Cell D) (isOpen : Fin D → Cell D → Bool) (set : List (Cell D)) : List (Cell D) × Bool :=
  (cells n).foldl (fun s c => if s.1.contains c then s else if spreads n isOpen s.1 c then (c :: s.1, true) else s) (set, false)

/-- _find_faces.py:1898-1914: the loop, with a limit to the number of rounds, `none` if it is reached -/
def fillLoop (n : Cell D) (isOpen : Fin D → Cell D → Bool) : Nat → List (Cell D) → Option (List (Cell D))
  | 0, _ => none
  | fuel + 1, set =>
    let s := sweep n isOpen set
    if s.2 then fillLoop n isOpen fuel s.1 else some s.1

/-- _find_faces.py:1892-1914 `_fill_bisector`; that the limit is not reached is `fill_ends` -/
def fill (n : Cell D) (isOpen : Fin D → Cell D → Bool) (set : List (Cell D)) : List (Cell D) :=
  (fillLoop n isOpen ((cells n).length + 1) set).getD []

/-- smallest index in one axis: `np.min(…, axis = 0)` -/
def minOf (l : List (Cell D)) (ax : Fin D) : Nat := (l.map (· ax)).foldl min ((l.head?.map (· ax)).getD 0)

/-- for `highOf` (_find_faces.py:1997-2020) -/
def maxOf (l : List (Cell D)) (ax : Fin D) : Nat := (l.map (· ax)).foldl max 0

/-- _find_faces.py:1997-2020: the lowest index in one axis, the extent at first -/
def lowOf (ext : Cell 3) (faces : Fin 3 → Option (List (Cell 3))) (a : Fin 3) : Nat :=
  let b := match faces 0 with | none => ext a | some l => minOf l a
  let b := match faces 1 with | none => b | some l => min b (minOf l a)
  match faces 2 with | none => b | some l => min b (minOf l a)

/-- _find_faces.py:1997-2020: the highest index in one axis, minus one at first -/
def highOf (faces : Fin 3 → Option (List (Cell 3))) (a : Fin 3) : Int :=
  let b : Int := match faces 0 with | none => -1 | some l => maxOf l a
  let b : Int := match faces 1 with | none => b | some l => max b (maxOf l a)
  match faces 2 with | none => b | some l => max b (maxOf l a)

/-- _find_faces.py:1987-2030 `get_boundary_from_indices`.  The faces of the three axes are lists, or `none`. -/
def boundaryFromIndices (ext : Cell 3) (faces : Fin 3 → Option (List (Cell 3))) : Res (Cell 3 × Cell 3) :=
  if (List.finRange 3).any (fun ax => faces ax == some []) then .error .value  -- np.min of nothing
  else if ¬ ((List.finRange 3).all fun a => decide ((lowOf ext faces a : Int) ≤ highOf faces a)) then .error .assertion
  else
    let lo' : Cell 3 := fun a => lowOf ext faces a - 1
    let hi' : Cell 3 := fun a => min (highOf faces a + 2).toNat (ext a)
    if ¬ ((List.finRange 3).all fun a => decide (lo' a < hi' a)) then .error .assertion else .ok (lo', hi')

/-- _find_faces.py:1656-1721: the box of the faces of one axis, with cells on both sides, and buffers.  The highest are included. -/
def faceBox (ext : Cell 3) (axis : Fin 3) (l : List (Cell 3)) : Cell 3 × Cell 3 :=
  (fun a => if axis = a then minOf l a else if minOf l a > 0 then minOf l a - 1 else minOf l a,
   fun a => if axis = a then maxOf l a + 1 else if maxOf l a < ext a - 1 then maxOf l a + 1 else maxOf l a)

/-- _find_faces.py:1630-1725 `get_boundary`: the faces are the true elements of three arrays, or `none` -/
def boundaryOfArrays (ext : Cell 3) (faces : Fin 3 → Option (List (Cell 3))) : Cell 3 × Cell 3 :=
  let b := (List.finRange 3).foldl (fun (b : Option (Cell 3 × Cell 3)) axis =>
    match faces axis with
    | none => b
    | some [] => b
    | some (c :: l) =>
      let f := faceBox ext axis (c :: l)
      match b with
      | none => some f
      | some b => some (fun a => min (f.1 a) (b.1 a), fun a => max (f.2 a) (b.2 a))) none
  let b := b.getD (fun _ => 0, fun _ => 0)
  (b.1, fun a => b.2 a + 1)

/-- _find_faces.py:1438-1468 (and 1361-1394), with 1940-1953 `_set_bisector_outside_box` and 1956-1984 `_box_face_arrays_from_indices`: the
bisector within the box, filled from its first cell, then the slabs outside the box -/
def rawBisector (ext lo hi : Cell 3) (faces : Fin 3 → Option (List (Cell 3))) : Cell 3 → Bool :=
  let n : Cell 3 := fun a => hi a - lo a
  let isOpen : Fin 3 → Cell 3 → Bool := fun ax r =>
    match faces ax with | none => true | some l => !(l.contains fun a => r a + lo a)
  let box := fill n isOpen [fun _ => 0]
  fun c =>
    ((List.finRange 3).all (fun a => decide (lo a ≤ c a) && decide (c a < hi a)) && box.contains fun a => c a - lo a) ||
    (List.finRange 3).any fun a =>
      (decide (hi a < ext a) && (box.any fun r => r a == n a - 1) && decide (hi a ≤ c a)) || (decide (lo a ≠ 0) && decide (c a < lo a))

/-- number of cells with true; for `finishBisector` (_find_faces.py:1470-1478) -/
def countTrue (ext : Cell D) (a : Cell D → Bool) : Nat := ((cells ext).filter a).length

/-- _find_faces.py:1917-1937 `_shallow_or_curtain`: the array, negated if that is the shallower, and whether it is taken to be a curtain -/
def shallowOrCurtain (ext : Cell 3) (a : Cell 3 → Bool) (trueCount : Nat) (raw : Bool) : (Cell 3 → Bool) × Bool :=
  let layer : Nat → Nat := fun k => ((cells ext).filter fun c => decide (c 0 = k) && a c).length
  let layerCellCount := ext 1 * ext 2
  let kSum := ((List.range (ext 0)).map fun k => (k + 1) * layer k).sum
  let oppositeKSum := ((List.range (ext 0)).map fun k => (k + 1) * (layerCellCount - layer k)).sum
  let meanK : Rat := (kSum : Rat) / trueCount
  let oppositeMeanK : Rat := (oppositeKSum : Rat) / ((ext 0 * ext 1 * ext 2 - trueCount : Nat) : Rat)
  (if oppositeMeanK < meanK ∧ raw = false then fun c => !(a c) else a, decide (|meanK - oppositeMeanK| ≤ 1 / 1000))

/-- _find_faces.py:1470-1478 (and 1396-1404) -/
def finishBisector (ext : Cell 3) (a : Cell 3 → Bool) (raw : Bool) : Res ((Cell 3 → Bool) × Bool) :=
  let trueCount := countTrue ext a
  if 0 < trueCount ∧ trueCount < (cells ext).length then .ok (shallowOrCurtain ext a trueCount raw) else .error .assertion

/-- _find_faces.py:1407-1478 `bisector_from_face_indices` -/
def bisectorFromFaceIndices (ext : Cell 3) (faces : Fin 3 → Option (List (Cell 3))) (raw : Bool) : Res ((Cell 3 → Bool) × Bool) :=
  match boundaryFromIndices ext faces with
  | .error e => .error e
  | .ok (lo, hi) => finishBisector ext (rawBisector ext lo hi faces) raw

/-- _find_faces.py:1333-1404 `bisector_from_faces` -/
def bisectorFromFaces (ext : Cell 3) (faces : Fin 3 → Option (List (Cell 3))) (raw : Bool) : Res ((Cell 3 → Bool) × Bool) :=
  let (lo, hi) := boundaryOfArrays ext faces
  finishBisector ext (rawBisector ext lo hi faces) raw

/-- _find_faces.py:1540-1551: the loop, in which the new cells of a round are all found before any is set -/
def columnLoop (ext : Cell 2) (isOpen : Fin 2 → Cell 2 → Bool) : Nat → List (Cell 2) → List (Cell 2)
  | 0, a => a
  | n + 1, a =>
    let c := (cells ext).filter fun c => spreads ext isOpen a c && !(a.contains c)
    if c.length = 0 then a else columnLoop ext isOpen n (a ++ c)

/-- _find_faces.py:1481-1505 `column_bisector_from_face_indices` and 1508-1555 `column_bisector_from_faces`.  Indices outside the arrays are
not modelled. -/
def columnBisector (ext : Cell 2) (jFaces iFaces : List (Cell 2)) : List (Cell 2) :=
  let isOpen : Fin 2 → Cell 2 → Bool := fun ax c => if ax = 0 then !(jFaces.contains c) else !(iFaces.contains c)
  columnLoop ext isOpen (ext 0 * ext 1) [fun _ => 0]

end Verif.FindFaces
