import Verif.Gcs.Model

/-! # Model of `GridConnectionSet.inherit_features` -/

namespace Verif.Gcs
open Verif.Py

/-- _grid_connection_set.py:2027-2034 `compact_indices` for one side of one connection -/
def compact (cell face : Nat) : Nat := 6 * cell + face

/-- order of Python tuples of two integers; for `sortedPaired` (_grid_connection_set.py:1942-1950) -/
def tupleLe (p q : Nat × Nat) : Bool := p.1 < q.1 || (p.1 == q.1 && p.2 ≤ q.2)

/-- _grid_connection_set.py:1942-1950 `sorted_paired_cell_face_index_position`: values of one side paired with their positions -/
def sortedPaired (vals : List Nat) : List (Nat × Nat) := vals.zipIdx.insertionSort (fun p q => tupleLe p q = true)

/-- _grid_connection_set.py:1954-1963 `fis`, the recursive binary search; the fuel is the size of the interval -/
def fis (p : List (Nat × Nat)) (v : Nat) : Nat → Nat → Nat → Option Nat
  | 0, _, _ => none
  | fuel + 1, a, b =>
    if b ≤ a then none
    else
      let m := (a + b) / 2
      match p[m]? with
      | none => none
      | some s =>
        if s.1 = v then some s.2
        else if v < s.1 then fis p v fuel a m
        else fis p v fuel (m + 1) b

/-- _grid_connection_set.py:1952-1965 `find_in_sorted` -/
def findInSorted (p : List (Nat × Nat)) (v : Nat) : Option Nat := fis p v (p.length + 1) 0 p.length

/-- _grid_connection_set.py:1970-1980: the combined feature list and the map of feature indices.  A feature which is already in
the list raises: `feature_uuid_list.index[featured_uuid]` subscripts a method. -/
def combineFeatures (fl : List Feature) : List Feature → Res (List Feature × List Nat)
  | [] => .ok (fl, [])
  | f :: fs =>
    if f.uuid ∈ fl.map (·.uuid) then .error .type
    else match combineFeatures (fl ++ [f]) fs with
      | .error e => .error e
      | .ok (fl', m) => .ok (fl', fl.length :: m)

/-- _grid_connection_set.py:2005-2012: feature index in the combined list for a cell face found in the featured set -/
def lookupFace (a b : List (Nat × Nat)) (ffi map : List Nat) (v : Nat) : Option Nat :=
  match (match findInSorted a v with
    | some p => some p
    | none => findInSorted b v) with
  | none => none
  | some p => match ffi[p]? with
    | none => none
    | some x => map[x]?

/-- _grid_connection_set.py:1996-2013: the loop over one sorted side; the state is the feature indices with the previous cell face
and what was found for it.  `orig` is the original feature count. -/
def inheritPass (lookup : Nat → Option Nat) (orig : Nat) :
    List (Nat × Nat) → List Nat × Option Nat × Option Nat → List Nat × Option Nat × Option Nat
  | [], st => st
  | (v, place) :: rest, (fi, prev, pf) =>
    if orig ≤ fi.getD place 0 then inheritPass lookup orig rest (fi, prev, pf)
    else if prev = some v then
      match pf with
      | some x => inheritPass lookup orig rest (fi.set place x, prev, pf)
      | none => inheritPass lookup orig rest (fi, prev, pf)
    else match lookup v with
      | none => inheritPass lookup orig rest (fi, some v, none)
      | some x => inheritPass lookup orig rest (fi.set place x, some v, some x)

/-- `while len(removals) > 0: self.feature_list.pop(removals[-1])`: entries at the listed positions removed -/
def popAll (fl : List Feature) (removals : List Nat) : List Feature :=
  removals.foldr (fun i l => l.eraseIdx i) fl

/-- _grid_connection_set.py:2016-2025: originals no longer in use are removed, and every feature index is reduced by the number
removed -/
def removeUnused (orig : Nat) (fl : List Feature) (fi : List Nat) : List Feature × List Int :=
  let removals := (List.range orig).filter fun x => decide (x ∉ fi)
  (popAll fl removals, fi.map fun (x : Nat) => (x : Int) - removals.length)

/-- _grid_connection_set.py:1925-2026 `inherit_features`: the new feature list and feature indices.  Copying of parts between
models is not modelled; null values are not modelled. -/
def inheritFeatures (conns : List Conn) (fl : List Feature) (fi : List Nat) (fconns : List Conn) (ffl : List Feature)
    (ffi : List Nat) : Res (List Feature × List Int) :=
  match combineFeatures fl ffl with
  | .error e => .error e
  | .ok (fl', map) =>
    let a := sortedPaired (fconns.map fun c => compact c.cell0 c.face0)
    let b := sortedPaired (fconns.map fun c => compact c.cell1 c.face1)
    let lookup := lookupFace a b ffi map
    let st := inheritPass lookup fl.length (sortedPaired (conns.map fun c => compact c.cell0 c.face0)) (fi, none, none)
    let st := inheritPass lookup fl.length (sortedPaired (conns.map fun c => compact c.cell1 c.face1)) st
    .ok (removeUnused fl.length fl' st.1)

end Verif.Gcs
