import Verif.Polygon.Model
import Verif.Py.Basic

/-!
# Model: which points are inside which polygons and triangles, in `resqpy/olio/vector_utilities.py`

Floats are elements of a linearly ordered field; NaNs and rounding (and the single precision of the spacings at line
910) are not modelled.
-/

namespace Verif.Plane
open Verif.Py Verif.Polygon

variable {K : Type} [Field K] [LinearOrder K]

/-- vector_utilities.py:647-655: the body of the loop of `point_in_polygon`; the state is `inside`, `xints` and the
point before -/
def pipStep (p : Pt K) (s : Bool × K × Pt K) (p2 : Pt K) : Bool × K × Pt K :=
  let inside := s.1
  let p1 := s.2.2
  if p.y > min p1.y p2.y then
    if p.y ≤ max p1.y p2.y then
      if p.x ≤ max p1.x p2.x then
        let xints := if p1.y ≠ p2.y then (p.y - p1.y) * (p2.x - p1.x) / (p2.y - p1.y) + p1.x else s.2.1
        (if p1.x = p2.x ∨ p.x ≤ xints then !inside else inside, xints, p2)
      else (inside, s.2.1, p2)
    else (inside, s.2.1, p2)
  else (inside, s.2.1, p2)

/-- vector_utilities.py:626-657 `point_in_polygon`: `polygon[i % n]` for i from 0 to n is each vertex and then the
first again.  For a polygon without vertices the compiled code reads outside the array; here the answer is False. -/
def pointInPolygon (p : Pt K) (polygon : List (Pt K)) : Bool :=
  match polygon with
  | [] => false
  | v :: l => ((v :: l ++ [v]).foldl (pipStep p) (false, 0, v)).1

/-- vector_utilities.py:692-703, 704-715, 716-727: one side of the triangle in `point_in_triangle`; the first block
sets `inside` to True where the others turn it over, which is the same as it is False before -/
def pitSide (p : Pt K) (inside : Bool) (p0 p1 : Pt K) : Bool :=
  if p.y > min p0.y p1.y then
    if p.y ≤ max p0.y p1.y then
      if p.x ≤ max p0.x p1.x then
        if p0.x = p1.x then !inside
        else if p0.y = p1.y then !inside
        else if p.x ≤ (p.y - p0.y) * (p1.x - p0.x) / (p1.y - p0.y) + p0.x then !inside
        else inside
      else inside
    else inside
  else inside

/-- vector_utilities.py:661-728 `point_in_triangle` -/
def pointInTriangle (p a b c : Pt K) : Bool :=
  if p.x < min (min a.x b.x) c.x then false
  else if p.x > max (max a.x b.x) c.x then false
  else if p.y < min (min a.y b.y) c.y then false
  else if p.y > max (max a.y b.y) c.y then false
  else pitSide p (pitSide p (pitSide p false a b) b c) c a

/-- vector_utilities.py:751-765, 785-792: the rows of `points_in_polygon` or `points_in_triangle` for a test of one
point; rows left at -1 are taken out.  The points are in parallel, each with a row of its own. -/
def rowsFor (inside : Pt K → Bool) (points : List (Pt K)) (xlen : Nat) (num : Int) : List (Int × Int × Int) :=
  (points.zipIdx.map fun e =>
    if inside e.1 then (num, ((e.2 / xlen : Nat) : Int), ((e.2 % xlen : Nat) : Int)) else (-1, -1, -1)).filter
      fun r => decide (r.1 ≠ -1)

/-- vector_utilities.py:732-765 `points_in_polygon` -/
def pointsInPolygon (points polygon : List (Pt K)) (xlen : Nat) (num : Int) : List (Int × Int × Int) :=
  rowsFor (fun p => pointInPolygon p polygon) points xlen num

/-- vector_utilities.py:769-792 `points_in_triangle` -/
def pointsInTriangle (points : List (Pt K)) (tri : Pt K × Pt K × Pt K) (xlen : Nat) (num : Int) :
    List (Int × Int × Int) :=
  rowsFor (fun p => pointInTriangle p tri.1 tri.2.1 tri.2.2) points xlen num

/-- vector_utilities.py:828-845 `points_in_polygons` -/
def pointsInPolygons (points : List (Pt K)) (polygons : List (List (Pt K))) (xlen : Nat) : List (Int × Int × Int) :=
  polygons.zipIdx.flatMap fun e => pointsInPolygon points e.1 xlen (e.2 : Int)

/-- vector_utilities.py:849-867 `points_in_triangles_njit` -/
def pointsInTrianglesNjit (points : List (Pt K)) (tris : List (Pt K × Pt K × Pt K)) (xlen : Nat) :
    List (Int × Int × Int) :=
  tris.zipIdx.flatMap fun e => pointsInTriangle points e.1 xlen (e.2 : Int)

/-- vector_utilities.py:796-825 `mesh_points_in_triangle` -/
def meshPointsInTriangle (a b c : Pt K) (nx ny : Nat) (num : Nat) : List (Nat × Int × Int) :=
  (List.range ny).flatMap fun (yi : Nat) => (List.range nx).filterMap fun (xi : Nat) =>
    if pointInTriangle ⟨(xi : K), (yi : K)⟩ a b c then some (num, (yi : Int), (xi : Int)) else none

/-- vector_utilities.py:913: in units of the mesh -/
def normalised (dx dy : K) (p : Pt K) : Pt K := ⟨p.x / dx - 1 / 2, p.y / dy - 1 / 2⟩

variable [FloorRing K]

/-- vector_utilities.py:913-933: one triangle of `points_in_triangles_aligned` -/
def alignedTriangle (nx ny : Nat) (dx dy : K) (tri : Pt K × Pt K × Pt K) (num : Nat) : List (Nat × Int × Int) :=
  let a := normalised dx dy tri.1
  let b := normalised dx dy tri.2.1
  let c := normalised dx dy tri.2.2
  let x0 := max ⌈min (min a.x b.x) c.x⌉ 0
  let x1 := min ⌊max (max a.x b.x) c.x⌋ ((nx : Int) - 1)
  if x1 < x0 then []
  else
    let y0 := max ⌈min (min a.y b.y) c.y⌉ 0
    let y1 := min ⌊max (max a.y b.y) c.y⌋ ((ny : Int) - 1)
    if y1 < y0 then []
    else
      let shift : Pt K → Pt K := fun q => ⟨q.x - (x0 : K), q.y - (y0 : K)⟩
      (meshPointsInTriangle (shift a) (shift b) (shift c) (x1 - x0 + 1).toNat (y1 - y0 + 1).toNat num).map
        fun r => (r.1, r.2.1 + y0, r.2.2 + x0)

/-- vector_utilities.py:894-935 `points_in_triangles_aligned` -/
def pointsInTrianglesAligned (nx ny : Nat) (dx dy : K) (tris : List (Pt K × Pt K × Pt K)) : List (Nat × Int × Int) :=
  tris.zipIdx.flatMap fun e => alignedTriangle nx ny dx dy e.1 e.2

end Verif.Plane
