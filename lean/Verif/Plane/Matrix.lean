import Verif.Polygon.Model
import Verif.Py.Basic

/-!
# Model: which of many points are in which of many triangles, `resqpy/olio/vector_utilities.py:529-622, 1564-1568`

Points are lists of coordinates, as many as `width`; indices are not negative (numpy counts negative ones from the end).
Floats are elements of a linearly ordered field.
-/

namespace Verif.Plane
open Verif.Py Verif.Polygon

variable {K : Type} [Field K] [LinearOrder K]

/-- vector_utilities.py:1564-1568 `_projected_xyz_axes` -/
def projectedAxes (projection : String) : Res (Nat × Nat) :=
  if projection = "xy" then .ok (0, 1)
  else if projection = "xz" then .ok (0, 2)
  else if projection = "yz" then .ok (1, 2)
  else .error .assertion

/-- vector_utilities.py:529-536 `clockwise`, 559-560 -/
def clockwise (a b c : Pt K) : K := (c.x - a.x) * (b.y - a.y) - (c.y - a.y) * (b.x - a.x)

/-- `p[i, a0], p[i, a1]` for all points; for `pointsInTriangles` (vector_utilities.py:583-622) -/
def project (a0 a1 : Nat) : List (List K) → Res (List (Pt K))
  | [] => .ok []
  | q :: l =>
    match q[a0]?, q[a1]?, project a0 a1 l with
    | some x, some y, .ok r => .ok (⟨x, y⟩ :: r)
    | _, _, _ => .error .index

/-- the corners of a triangle; for `clockwiseTriangles` (vector_utilities.py:539-560) -/
def corners (p : List (Pt K)) (t : Nat × Nat × Nat) : Res (Pt K × Pt K × Pt K) :=
  match p[t.1]?, p[t.2.1]?, p[t.2.2]? with
  | some a, some b, some c => .ok (a, b, c)
  | _, _, _ => .error .index

/-- vector_utilities.py:539-560 `clockwise_triangles`, after projection -/
def clockwiseTriangles (p : List (Pt K)) : List (Nat × Nat × Nat) → Res (List K)
  | [] => .ok []
  | t :: l =>
    match corners p t, clockwiseTriangles p l with
    | .ok (a, b, c), .ok r => .ok (clockwise a b c :: r)
    | _, _ => .error .index

/-- vector_utilities.py:612-617: the three little triangles made by a point (index `d`) and the sides of a triangle -/
def little (cwt : K) (t : Nat × Nat × Nat) (d : Nat) : List (Nat × Nat × Nat) :=
  if cwt > 0 then [(t.2.1, t.1, d), (t.2.2, t.2.1, d), (t.1, t.2.2, d)]
  else [(t.1, t.2.1, d), (t.2.1, t.2.2, d), (t.2.2, t.1, d)]

/-- vector_utilities.py:618-622: the answer for one triangle and one point -/
def inOne (pp : List (Pt K)) (edged : Bool) (cwt : K) (t : Nat × Nat × Nat) (d : Nat) : Res Bool :=
  match clockwiseTriangles pp (little cwt t d) with
  | .error e => .error e
  | .ok l => .ok (if edged then l.all fun v => decide (v ≤ 0) else l.all fun v => decide (v < 0))

/-- the answers for one triangle; for `pointsInTriangles` (vector_utilities.py:583-622) -/
def inRow (pp : List (Pt K)) (edged : Bool) (cwt : K) (t : Nat × Nat × Nat) : List Nat → Res (List Bool)
  | [] => .ok []
  | d :: l =>
    match inOne pp edged cwt t d, inRow pp edged cwt t l with
    | .ok b, .ok r => .ok (b :: r)
    | .error e, _ => .error e
    | _, .error e => .error e

/-- the answers for all triangles; for `pointsInTriangles` (vector_utilities.py:583-622) -/
def inRows (pp : List (Pt K)) (edged : Bool) (ds : List Nat) : List ((Nat × Nat × Nat) × K) → Res (List (List Bool))
  | [] => .ok []
  | (t, cwt) :: l =>
    match inRow pp edged cwt t ds, inRows pp edged ds l with
    | .ok b, .ok r => .ok (b :: r)
    | .error e, _ => .error e
    | _, .error e => .error e

/-- vector_utilities.py:583-622 `points_in_triangles`; the widths are those of the second axes of `p` and `da` -/
def pointsInTriangles (width widthDa : Nat) (p : List (List K)) (t : List (Nat × Nat × Nat)) (da : List (List K))
    (projection : String) (edged : Bool) : Res (List (List Bool)) :=
  if widthDa ≠ width then .error .assertion
  else match projectedAxes projection with
    | .error e => .error e
    | .ok (a0, a1) =>
      match project a0 a1 p with
      | .error e => .error e
      | .ok pts =>
        match clockwiseTriangles pts t with
        | .error e => .error e
        | .ok cwt =>
          match project a0 a1 (p ++ da) with
          | .error e => .error e
          | .ok pp => inRows pp edged ((List.range da.length).map (· + p.length)) (t.zip cwt)

end Verif.Plane
