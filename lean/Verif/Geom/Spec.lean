import Verif.Geom.Model

/-! # What is asked of intersections -/

namespace Verif.Geom
variable {K : Type} [Field K] [LinearOrder K]

/-- `q` is on the line through `p` in direction `v`; if `segment`, between `p` and `p + v` -/
def OnLine (p v : P3 K) (segment : Bool) (q : P3 K) : Prop :=
  ∃ t : K, (segment = true → 0 ≤ t ∧ t ≤ 1) ∧ q.x = p.x + t * v.x ∧ q.y = p.y + t * v.y ∧ q.z = p.z + t * v.z

/-- `q` is a weighted mean of the corners: it is in the triangle or on its boundary -/
def InTriangle (tri : Tri K) (q : P3 K) : Prop :=
  ∃ f g h : K, 0 ≤ f ∧ 0 ≤ g ∧ 0 ≤ h ∧ f + g + h = 1 ∧ q.x = f * tri.a.x + g * tri.b.x + h * tri.c.x ∧
    q.y = f * tri.a.y + g * tri.b.y + h * tri.c.y ∧ q.z = f * tri.a.z + g * tri.b.z + h * tri.c.z

/-- in the plane of the triangle -/
def InPlane (tri : Tri K) (q : P3 K) : Prop :=
  ∃ f g h : K, f + g + h = 1 ∧ q.x = f * tri.a.x + g * tri.b.x + h * tri.c.x ∧
    q.y = f * tri.a.y + g * tri.b.y + h * tri.c.y ∧ q.z = f * tri.a.z + g * tri.b.z + h * tri.c.z

/-- The line is parallel to the plane, or the triangle has no area: some combination of the direction of the line and two sides of
the triangle, not all with factor zero, is zero. -/
def Parallel (v : P3 K) (tri : Tri K) : Prop :=
  ∃ d e f : K, (d ≠ 0 ∨ e ≠ 0 ∨ f ≠ 0) ∧ d * v.x + e * (tri.b.x - tri.a.x) + f * (tri.c.x - tri.a.x) = 0 ∧
    d * v.y + e * (tri.b.y - tri.a.y) + f * (tri.c.y - tri.a.y) = 0 ∧ d * v.z + e * (tri.b.z - tri.a.z) + f * (tri.c.z - tri.a.z) = 0

/-- on the line in the plane through two points, a fraction `t` of the way from the first to the second -/
def At (a b : K × K) (t : K) (q : K × K) : Prop := q.1 = a.1 + t * (b.1 - a.1) ∧ q.2 = a.2 + t * (b.2 - a.2)

/-- square of the distance between two points of the plane -/
def dist2 (a b : K × K) : K := (a.1 - b.1) * (a.1 - b.1) + (a.2 - b.2) * (a.2 - b.2)

end Verif.Geom
