import Verif.Delaunay.Model
import Verif.Polygon.Spec

/-! # Specification vocabulary for Delaunay triangulations

`orient a b c` (Verif.Polygon.Spec) is twice the signed area of a triangle, positive for corners in anticlockwise order. -/

namespace Verif.Delaunay
open Verif.Polygon (Pt orient)

variable {K : Type} [Field K] [LinearOrder K]

/-- square of the distance between two points -/
def dist2 (a b : Pt K) : K := (a.x - b.x) * (a.x - b.x) + (a.y - b.y) * (a.y - b.y)

/-- within the circle through three points, not on it -/
def InsideCircle (a b c d : Pt K) : Prop := ∃ o : Pt K, dist2 o a = dist2 o b ∧ dist2 o b = dist2 o c ∧ dist2 o d < dist2 o a

/-- a weighted mean of the corners with positive weights: inside the triangle, not on the boundary -/
def Within (a b c d : Pt K) : Prop :=
  ∃ u v w : K, 0 < u ∧ 0 < v ∧ 0 < w ∧ u + v + w = 1 ∧ d.x = u * a.x + v * b.x + w * c.x ∧ d.y = u * a.y + v * b.y + w * c.y

/-- the corners of a triangle of indices -/
def Corners (po : List (Pt K)) (T : Fin 3 → Nat) (a b c : Pt K) : Prop := po[T 0]? = some a ∧ po[T 1]? = some b ∧ po[T 2]? = some c

/-- triangles of points, anticlockwise and not flat, with no point within the circle through the corners of a triangle, and which do not overlap -/
structure IsDelaunay (po : List (Pt K)) (ts : List (Fin 3 → Nat)) : Prop where
  corners : ∀ T ∈ ts, ∃ a b c, Corners po T a b c
  anticlockwise : ∀ T ∈ ts, ∀ a b c, Corners po T a b c → 0 < orient a b c
  empty : ∀ T ∈ ts, ∀ a b c, Corners po T a b c → ∀ d ∈ po, ¬ InsideCircle a b c d
  apart : ts.Pairwise fun T U => ∀ a b c a' b' c', Corners po T a b c → Corners po U a' b' c' → ∀ x, ¬ (Within a b c x ∧ Within a' b' c' x)

end Verif.Delaunay
