import Mathlib.Algebra.Field.Defs
import Mathlib.Algebra.Order.Ring.Defs

/-!
# What the triangles of surfaces should be

Nothing here refers to the code: a triangle is seen as the triple of its corner points.
-/

namespace Verif.Surface.Spec

variable {P : Type}

/-- the corner points of a triangle which is given by the numbers of its points, if all three points exist -/
def corners (points : List P) (t : Int × Int × Int) : Option (P × P × P) :=
  if 0 ≤ t.1 ∧ 0 ≤ t.2.1 ∧ 0 ≤ t.2.2 then
    match points[t.1.toNat]?, points[t.2.1.toNat]?, points[t.2.2.toNat]? with
    | some a, some b, some c => some (a, b, c)
    | _, _, _ => none
  else none

/-- the same for natural numbers -/
def cornersN (points : List P) (t : Nat × Nat × Nat) : Option (P × P × P) :=
  match points[t.1]?, points[t.2.1]?, points[t.2.2]? with
  | some a, some b, some c => some (a, b, c)
  | _, _, _ => none

/-- the triangles which stand for a quadrangle with opposite corners a, d and b, c: either two, divided along the diagonal from b to c,
or four around the centre -/
def quadTriangles (four : Bool) (centre a b c d : P) : List (P × P × P) :=
  if four then [(centre, a, b), (centre, b, d), (centre, d, c), (centre, c, a)] else [(a, b, c), (d, b, c)]

/-- the number of triangles to a quadrangle -/
def perQuad (four : Bool) : Nat := if four then 4 else 2

/-- the triangles which stand for a quadrangle of which corners may be undefined: those of the whole quadrangle if none is, the
triangle of the other three if one is, and none otherwise -/
def sparseTriangles (a b c d : Option P) : List (P × P × P) :=
  match a, b, c, d with
  | some a, some b, some c, some d => [(a, b, c), (d, b, c)]
  | none, some b, some c, some d => [(b, c, d)]
  | some a, none, some c, some d => [(a, c, d)]
  | some a, some b, none, some d => [(b, a, d)]
  | some a, some b, some c, none => [(b, c, a)]
  | _, _, _, _ => []

/-- a point of the plane is in a triangle: it is a mean of the corners with weights which are not negative -/
def InTriangle {K : Type} [Field K] [LinearOrder K] (t : (K × K) × (K × K) × (K × K)) (q : K × K) : Prop :=
  ∃ u v w : K, 0 ≤ u ∧ 0 ≤ v ∧ 0 ≤ w ∧ u + v + w = 1 ∧
    q.1 = u * t.1.1 + v * t.2.1.1 + w * t.2.2.1 ∧ q.2 = u * t.1.2 + v * t.2.1.2 + w * t.2.2.2

/-- a point of the plane is in the interior of a triangle -/
def InsideTriangle {K : Type} [Field K] [LinearOrder K] (t : (K × K) × (K × K) × (K × K)) (q : K × K) : Prop :=
  ∃ u v w : K, 0 < u ∧ 0 < v ∧ 0 < w ∧ u + v + w = 1 ∧
    q.1 = u * t.1.1 + v * t.2.1.1 + w * t.2.2.1 ∧ q.2 = u * t.1.2 + v * t.2.1.2 + w * t.2.2.2

end Verif.Surface.Spec
