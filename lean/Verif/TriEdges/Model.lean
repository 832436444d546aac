import Verif.Py.Basic

/-!
# Model: edges and rims of a triangulation

`/repo/resqpy/olio/triangulation.py:905-1051`.  Point indices are natural numbers.
-/

namespace Verif.TriEdges
open Verif.Py

/-- triangulation.py:905-909 one row of the array of triangles: three point indices -/
abbrev Tri := Nat × Nat × Nat

/-- a row of an array of edges: two point indices; for `edges` (triangulation.py:905-929) -/
abbrev Edge := Nat × Nat

/-- triangulation.py:928 `sort(axis = -1)`: the lower index first -/
def sorted (e : Edge) : Edge := if e.2 < e.1 then (e.2, e.1) else e

/-- triangulation.py:923-928 the three sides of each triangle -/
def allEdges (t : List Tri) : List Edge := t.flatMap fun (a, b, c) => [sorted (a, b), sorted (b, c), sorted (c, a)]

/-- the order of rows in `np.unique(..., axis = 0)`: by the first index, then by the second; for `edges` (triangulation.py:929) -/
def before (d e : Edge) : Bool := d.1 < e.1 || (d.1 == e.1 && d.2 < e.2)

/-- one more row is counted; for `edges` (triangulation.py:929) -/
def insertCount (e : Edge) : List (Edge × Nat) → List (Edge × Nat)
  | [] => [(e, 1)]
  | (d, n) :: l => if before e d then (e, 1) :: (d, n) :: l else if e = d then (d, n + 1) :: l else (d, n) :: insertCount e l

/-- triangulation.py:905-929 edges: `np.unique(all_edges, axis = 0, return_counts = True)`, edges and counts side by side -/
def edges (t : List Tri) : List (Edge × Nat) := (allEdges t).foldr insertCount []

/-- whether a triangle has a point as a corner; for `usingPoint` (triangulation.py:936) -/
def hasPoint (p : Nat) (t : Tri) : Bool := t.1 == p || t.2.1 == p || t.2.2 == p

/-- `np.where(mask)[0]`; for `usingPoint` (triangulation.py:937) -/
def indicesWhere {α : Type} (p : α → Bool) (l : List α) : List Nat := (l.zipIdx.filter fun x => p x.1).map (·.2)

/-- triangulation.py:932-937 triangles_using_point -/
def usingPoint (t : List Tri) (p : Nat) : List Nat := indicesWhere (hasPoint p) t

/-- triangulation.py:940-945 triangles_using_edge -/
def usingEdge (t : List Tri) (p1 p2 : Nat) : Res (List Nat) :=
  if p1 = p2 then .error .assertion else .ok (indicesWhere (fun x => hasPoint p1 x && hasPoint p2 x) t)

/-- triangulation.py:948-960 triangles_using_edges; −1 is `none` -/
def usingEdges (t : List Tri) : List Edge → Res (List (Option Nat × Option Nat))
  | [] => .ok []
  | e :: es => do
    let te ← usingEdge t e.1 e.2
    if te.length > 2 then .error .assertion
    else
      let rest ← usingEdges t es
      return (te[0]?, te[1]?) :: rest

/-- triangulation.py:963-968 rim_edges -/
def rimEdges (es : List (Edge × Nat)) : List Edge := (es.filter fun x => x.2 == 1).map (·.1)

/-- triangulation.py:971-976 internal_edges -/
def internalEdges (es : List (Edge × Nat)) : List Edge := (es.filter fun x => x.2 == 2).map (·.1)

/-- triangulation.py:1036-1042 _first_false -/
def firstFalse : List Bool → Nat
  | [] => 0
  | b :: l => if !b then 0 else firstFalse l + 1

/-- triangulation.py:1027-1029 the first unused row whose first index is `v`, with its second index -/
def findFirst (v : Nat) : List Edge → List Bool → Nat → Option (Nat × Nat)
  | e :: es, u :: us, i => if e.1 == v && !u then some (i, e.2) else findFirst v es us (i + 1)
  | _, _, _ => none

/-- triangulation.py:1030-1032 the first unused row whose second index is `v`, with its first index -/
def findSecond (v : Nat) : List Edge → List Bool → Nat → Option (Nat × Nat)
  | e :: es, u :: us, i => if e.2 == v && !u then some (i, e.1) else findSecond v es us (i + 1)
  | _, _, _ => none

/-- triangulation.py:1024-1033 _find_unused; `none` is the index past the end -/
def findUnused (ap : List Edge) (used : List Bool) (v : Nat) : Option (Nat × Nat) :=
  match findFirst v ap used 0 with
  | some r => some r
  | none => findSecond v ap used 0

/-- triangulation.py:1009-1016 the loop following a rim: the edges used, the indices of the edges of the rim and of its points.  Each
turn uses an edge not used before, so a fuel of the number of edges is enough: see `C122_fuel`. -/
def follow (ap : List Edge) (start : Nat) : Nat → Nat → List Bool → List Nat → List Nat → Option (Res (List Bool × List Nat × List Nat))
  | fuel, next, used, rei, rpi =>
    if next = start then some (.ok (used, rei, rpi))
    else match fuel with
      | 0 => none
      | fuel + 1 =>
        match findUnused ap used next with
        | none => some (.error .assertion)
        | some (index, nextNext) => follow ap start fuel nextNext (used.set index true) (rei ++ [index]) (rpi ++ [next])

/-- triangulation.py:998-1019 the loop over rims -/
def rimsLoop (ap : List Edge) : Nat → List Bool → List (List Nat) → List (List Nat) → Option (Res (List (List Nat) × List (List Nat)))
  | fuel, used, rel, rpl =>
    if used.all id then some (.ok (rel, rpl))
    else match fuel with
      | 0 => none
      | fuel + 1 =>
        match ap[firstFalse used]? with
        | none => some (.error .assertion)
        | some e =>
          match follow ap e.1 ap.length e.2 (used.set (firstFalse used) true) [firstFalse used] [e.1] with
          | none => none
          | some (.error x) => some (.error x)
          | some (.ok (used', rei, rpi)) => rimsLoop ap fuel used' (rel ++ [rei]) (rpl ++ [rpi])

/-- triangulation.py:979-1021 rims: for each rim the indices of its edges and of its points.  The loop runs while fewer edges are used than
there are, that is while an edge is not used. -/
def rims (ap : List Edge) : Option (Res (List (List Nat) × List (List Nat))) :=
  rimsLoop ap ap.length (List.replicate ap.length false) [] []

end Verif.TriEdges
