import Verif.Py.Basic
import Mathlib.Algebra.Order.Field.Basic
import Mathlib.Algebra.Order.Floor.Ring

/-! # Model of `resqpy/olio/point_inclusion.py`

Floats are elements of a linearly ordered field; NaNs and rounding are not modelled. -/

namespace Verif.Polygon

/-- a point: the first two elements of a tuple-like point; further elements are never looked at; for `edges` (point_inclusion.py:35-37) -/
@[ext] structure Pt (K : Type) where
  x : K
  y : K
deriving DecidableEq

section edges
variable {K : Type}

/-- the pairs (`v1`, `v2`) met by `for edge in range(len(poly)): v1 = poly[edge - 1]; v2 = poly[edge]` from some
index on, `prev` being the vertex before that index -/
def edgesFrom (prev : Pt K) : List (Pt K) → List (Pt K × Pt K)
  | [] => []
  | v :: l => (prev, v) :: edgesFrom v l

/-- point_inclusion.py:35-37, 64-66, 111-113, 163-165: the pairs (`v1`, `v2`) in the order of the loop; for
`edge = 0` the index `edge - 1` is the last vertex -/
def edges : List (Pt K) → List (Pt K × Pt K)
  | [] => []
  | v :: l => edgesFrom ((v :: l).getLast (List.cons_ne_nil v l)) (v :: l)

end edges

section
variable {K : Type} [Field K] [LinearOrder K]

/-- the x value where the line through two vertices is at the level of the point; for `cnStep` (point_inclusion.py:38-42) -/
def xAt (y : K) (v1 v2 : Pt K) : K := v1.x + (v2.x - v1.x) * (y - v1.y) / (v2.y - v1.y)

/-- point_inclusion.py:38-42 the body of the loop of `pip_cn` -/
def cnStep (p : Pt K) (crossings : Nat) (e : Pt K × Pt K) : Nat :=
  let v1 := e.1
  let v2 := e.2
  if (v1.x > p.x ∨ v2.x > p.x) ∧ ((v1.y ≤ p.y ∧ v2.y > p.y) ∨ (v1.y > p.y ∧ v2.y ≤ p.y)) then
    if v1.x > p.x ∧ v2.x > p.x then crossings + 1
    else if p.x < xAt p.y v1 v2 then crossings + 1
    else crossings
  else crossings

/-- point_inclusion.py:14-44 `pip_cn` -/
def pipCn (p : Pt K) (poly : List (Pt K)) : Bool :=
  (edges poly).foldl (cnStep p) 0 % 2 == 1

/-- point_inclusion.py:67-78 the body of the loop of `pip_wn` -/
def wnStep (p : Pt K) (winding : Int) (e : Pt K × Pt K) : Int :=
  let v1 := e.1
  let v2 := e.2
  if v1.x ≤ p.x ∧ v2.x ≤ p.x then winding
  else if v1.y ≤ p.y ∧ v2.y > p.y then
    if v1.x > p.x ∧ v2.x > p.x then winding + 1
    else if p.x < xAt p.y v1 v2 then winding + 1
    else winding
  else if v1.y > p.y ∧ v2.y ≤ p.y then
    if v1.x > p.x ∧ v2.x > p.x then winding - 1
    else if p.x < xAt p.y v1 v2 then winding - 1
    else winding
  else winding

/-- the value of `winding` at the end of the loop of `pip_wn`; for `wnStep` (point_inclusion.py:67-78) -/
def winding (p : Pt K) (poly : List (Pt K)) : Int := (edges poly).foldl (wnStep p) 0

/-- point_inclusion.py:47-80 `pip_wn` -/
def pipWn (p : Pt K) (poly : List (Pt K)) : Bool := winding p poly != 0

/-- point_inclusion.py:114-121 what one edge adds at one element of the vector `crossings`.  Where the edge is
level the code divides by zero (numpy gives an infinity or a NaN, with the warnings turned off); here the quotient
is then 0, which is harmless as the other half of the conjunction is false. -/
def arrayTerm (p : Pt K) (e : Pt K × Pt K) : Nat :=
  let v1 := e.1
  let v2 := e.2
  if ((v1.x > p.x ∨ v2.x > p.x) ∧ ((v1.y ≤ p.y ∧ v2.y > p.y) ∨ (v1.y > p.y ∧ v2.y ≤ p.y))) ∧
      ((v1.x > p.x ∧ v2.x > p.x) ∨ p.x < xAt p.y v1 v2) then 1 else 0

/-- point_inclusion.py:83-127 `pip_array_cn` on the points in flattened order; the reshaping of the result to the
shape of the points array less its last axis is left out -/
def pipArrayCn (ps : List (Pt K)) (poly : List (Pt K)) : List Bool :=
  if ps.length = 0 then []
  else
    let crossings := (edges poly).foldl (fun c e => List.zipWith (fun a p => a + arrayTerm p e) c ps)
      (List.replicate ps.length 0)
    crossings.map fun c => c % 2 == 1

/-- point_inclusion.py:163-171 the inner loop of `scan`: the x values of the first two edges with one end above
the level -/
def scanCuts (y : K) : List (Pt K × Pt K) → List K → List K
  | [], ix => ix
  | e :: l, ix =>
    if (e.1.y > y ∧ e.2.y > y) ∨ (e.1.y ≤ y ∧ e.2.y ≤ y) then scanCuts y l ix
    else
      let ix' := ix ++ [xAt y e.1 e.2]
      if ix'.length = 2 then ix' else scanCuts y l ix'

end

section scan
variable {K : Type} [Field K] [LinearOrder K] [IsStrictOrderedRing K] [FloorRing K]

/-- `int(v)` of a float: rounds towards zero; for `scanAt` (point_inclusion.py:159-180) -/
def truncI (v : K) : Int := if 0 ≤ v then ⌊v⌋ else ⌈v⌉

/-- the element range of a one dimensional python slice `a:b` of a sequence of `n` elements; for `scanAt` (point_inclusion.py:159-180) -/
def sliceHas (n : Nat) (a b : Int) (c : Nat) : Bool :=
  let norm := fun i : Int => if i < 0 then (if i + n < 0 then 0 else i + n) else if i > n then (n : Int) else i
  decide (norm a ≤ c ∧ (c : Int) < norm b)

/-- point_inclusion.py:159-180 one row of the mask made by `scan`, element `col` -/
def scanAt (ox oy : K) (ncol : Nat) (dx dy : K) (poly : List (Pt K)) (row col : Nat) : Bool :=
  let y := oy + dy * row
  match scanCuts y (edges poly) [] with
  | [i0, i1] =>
    let s := if i1 < i0 then (i1, i0) else (i0, i1)
    let scol := ⌈(s.1 - ox) / dx⌉
    let ecol := truncI ((s.2 - ox) / dx)
    sliceHas ncol scol (ecol + 1) col
  | _ => false

/-- point_inclusion.py:153-182 `scan` -/
def scan (ox oy : K) (ncol nrow : Nat) (dx dy : K) (poly : List (Pt K)) : List (List Bool) :=
  (List.range nrow).map fun row => (List.range ncol).map fun col => scanAt ox oy ncol dx dy poly row col

/-! ## `resqpy/grid/_pixel_maps.py` -/

/-- the smallest of the values of the corners; for `pixelStep` (_pixel_maps.py:92-111) -/
def least (f : Pt K → K) (v : Pt K) (l : List (Pt K)) : K := l.foldl (fun m w => min m (f w)) (f v)
/-- the greatest of the values of the corners; for `pixelStep` (_pixel_maps.py:92-111) -/
def greatest (f : Pt K → K) (v : Pt K) (l : List (Pt K)) : K := l.foldl (fun m w => max m (f w)) (f v)

/-- _pixel_maps.py:79-83: the corners of a face of a column, given as `corner jp ip`, in perimeter order -/
def perimeter (corner : Fin 2 → Fin 2 → Pt K) : List (Pt K) := [corner 0 0, corner 0 1, corner 1 1, corner 1 0]

/-- _pixel_maps.py:94-101: the first pixel and the number of pixels of the patch, along one axis; `none` if the cell
is skipped.  `lo` and `hi` are the limits of the corners along that axis. -/
def patch (lo hi o d : K) (size : Nat) : Option (Int × Int) :=
  let half := 1 / 2 * d
  let b0 := lo - half
  let b1 := hi + half
  let p0 := truncI ((b0 - o) / d)
  if p0 < 0 then none
  else
    let extent := ⌈(b1 - b0) / d⌉
    if p0 + extent > size then none else some (p0, extent)

/-- _pixel_maps.py:92-111: the effect of one cell on one element of the map.  The two tests on the two axes are made in a
different order from the code, which has no effect as all of them lead to `continue`.  Cells with NaNs among their corners are
skipped by the code and are not in the list of cells here. -/
def pixelStep (ox oy : K) (width height : Nat) (dx dy : K) (r c : Nat) (old : Option (Nat × Nat))
    (cell : (Nat × Nat) × (Fin 2 → Fin 2 → Pt K)) : Option (Nat × Nat) :=
  let poly := perimeter cell.2
  let v := cell.2 0 0
  match patch (least Pt.x v poly) (greatest Pt.x v poly) ox dx width,
      patch (least Pt.y v poly) (greatest Pt.y v poly) oy dy height with
  | some (px, ex), some (py, ey) =>
    if py ≤ r ∧ (r : Int) < py + ey ∧ px ≤ c ∧ (c : Int) < px + ex then
      if scanAt (ox + dx * px + 1 / 2 * dx) (oy + dy * py + 1 / 2 * dy) ex.toNat dx dy poly (r - py).toNat (c - px).toNat then
        some cell.1
      else old
    else old
  | _, _ => old

/-- _pixel_maps.py:51-112 `pixel_map_for_split_horizon_points`, one element of the map; `none` stands for the pair
(-1, -1).  The cells are in the order of the loops: `j` then `i`. -/
def pixelMap (ox oy : K) (width height : Nat) (dx dy : K) (cells : List ((Nat × Nat) × (Fin 2 → Fin 2 → Pt K)))
    (r c : Nat) : Option (Nat × Nat) :=
  cells.foldl (pixelStep ox oy width height dx dy r c) none

end scan

end Verif.Polygon
