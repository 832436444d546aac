import Verif.TriEdges.Model
import Mathlib.Algebra.Ring.Parity
import Mathlib.Algebra.BigOperators.Group.List.Basic

/-!
# Specification: edges and rims of a triangulation
-/

namespace Verif.TriEdges

/-- the sides of a triangle, going round it -/
def sides (t : Tri) : List Edge := [(t.1, t.2.1), (t.2.1, t.2.2), (t.2.2, t.1)]

/-- how many times triangles have the side between two points, in one direction or the other -/
def uses (ts : List Tri) (a b : Nat) : Nat :=
  (ts.map fun t => ((sides t).filter fun s => decide (s = (a, b) ∨ s = (b, a))).length).sum

/-- the three corners of the triangle are different points -/
def Proper (t : Tri) : Prop := t.1 ≠ t.2.1 ∧ t.2.1 ≠ t.2.2 ∧ t.2.2 ≠ t.1

instance (t : Tri) : Decidable (Proper t) := inferInstanceAs (Decidable (_ ∧ _))

/-- how many of the two ends of an edge are a point -/
def ends (e : Edge) (v : Nat) : Nat := (if e.1 = v then 1 else 0) + (if e.2 = v then 1 else 0)

/-- the number of ends of edges at a point -/
def degree (ap : List Edge) (v : Nat) : Nat := (ap.map fun e => ends e v).sum

/-- an edge joins two points -/
def Joins (e : Edge) (a b : Nat) : Prop := e = (a, b) ∨ e = (b, a)

/-- a closed loop: the edge at each place joins the point there to the following point, the last edge leading back to the first point -/
structure Loop (ap : List Edge) (es ps : List Nat) : Prop where
  nonempty : ps ≠ []
  length : es.length = ps.length
  joins : ∀ n, (h : n < ps.length) → ∃ e, (es[n]?).bind (fun i => ap[i]?) = some e ∧
    Joins e ps[n] (ps[(n + 1) % ps.length]'(Nat.mod_lt _ (by omega)))

end Verif.TriEdges
