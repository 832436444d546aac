import Verif.Polygon.Model

/-! # Specification vocabulary for point inclusion -/

namespace Verif.Polygon

variable {K : Type} [Field K] [LinearOrder K]

/-- one end of the edge is above the level `y` and the other is not -/
def Straddles (y : K) (e : Pt K × Pt K) : Prop := ¬ (y < e.1.y ↔ y < e.2.y)

/-- the edge meets the horizontal ray going from `p` in the direction of increasing x; an end of the edge at the level
of the point counts as below it -/
def MeetsRay (p : Pt K) (e : Pt K × Pt K) : Prop :=
  Straddles p.y e ∧
    ∃ t : K, 0 ≤ t ∧ t ≤ 1 ∧ e.1.y + t * (e.2.y - e.1.y) = p.y ∧ p.x < e.1.x + t * (e.2.x - e.1.x)

/-- twice the signed area of the triangle: positive when `c` is to the left of the line from `a` to `b` -/
def orient (a b c : Pt K) : K := (b.x - a.x) * (c.y - a.y) - (b.y - a.y) * (c.x - a.x)

/-- strictly within a triangle, whichever way its corners go round -/
def StrictlyInside (a b c p : Pt K) : Prop :=
  (0 < orient a b p ∧ 0 < orient b c p ∧ 0 < orient c a p) ∨
    (orient a b p < 0 ∧ orient b c p < 0 ∧ orient c a p < 0)

/-- on or within a triangle -/
def WithinClosed (a b c p : Pt K) : Prop :=
  ∃ u v w : K, 0 ≤ u ∧ 0 ≤ v ∧ 0 ≤ w ∧ u + v + w = 1 ∧
    p.x = u * a.x + v * b.x + w * c.x ∧ p.y = u * a.y + v * b.y + w * c.y

/-- the triangles made by the first vertex and each edge not touching it -/
def fan (v : Pt K) : List (Pt K) → List (List (Pt K))
  | a :: b :: l => [v, a, b] :: fan v (b :: l)
  | _ => []

end Verif.Polygon
