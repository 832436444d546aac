import Verif.FindFaces.Bisector

/-! # Model of the shadow of faces

`resqpy/grid_surface/_find_faces.py`: `shadow_from_face_indices` and `shadow_from_faces`. -/

namespace Verif.FindFaces
open Verif.Py

/-- an array of cells (k, j, i); for `shadowStart` (_find_faces.py:1572-1574) -/
abbrev Arr := Nat → Nat → Nat → Nat

/-- `for _ in range(limit)`, with the break when nothing is found; for `shadowFromFaces` (_find_faces.py:1594-1627) -/
def shadowLoop (ext : Cell 3) (found : Arr → Nat → Nat → Nat → Bool) (update : Arr → Arr) : Nat → Arr → Arr
  | 0, s => s
  | n + 1, s =>
    if (List.range (ext 0 - 1)).any fun k => (List.range (ext 1)).any fun j => (List.range (ext 2)).any fun i => found s k j i then
      shadowLoop ext found update n (update s)
    else s

/-- _find_faces.py:1572-1574: the cells above and below the faces -/
def shadowStart (kFaces : List (Cell 3)) : Arr := fun k j i =>
  (if kFaces.contains ![k, j, i] then 1 else 0) + (if decide (k ≠ 0) && kFaces.contains ![k - 1, j, i] then 2 else 0)

/-- in the array from the second layer upwards, or downwards, an index of a pair of layers; for `foundAbove` (_find_faces.py:1576) -/
def inPairs (ext : Cell 3) (k j i : Nat) : Bool := decide (k < ext 0 - 1) && decide (j < ext 1) && decide (i < ext 2)

/-- _find_faces.py:1576 -/
def foundAbove (ext : Cell 3) (s : Arr) (k j i : Nat) : Bool := inPairs ext k j i && s k j i == 0 && s (k + 1) j i == 1

/-- _find_faces.py:1581 -/
def foundBelow (ext : Cell 3) (s : Arr) (k j i : Nat) : Bool := inPairs ext k j i && s (k + 1) j i == 0 && s k j i == 2

/-- _find_faces.py:1586 -/
def foundBetween (ext : Cell 3) (s : Arr) (k j i : Nat) : Bool := inPairs ext k j i && decide (2 ≤ s k j i) && s (k + 1) j i == 1

/-- _find_faces.py:1575-1579 -/
def spreadAbove (ext : Cell 3) (s : Arr) : Arr := fun k j i => if foundAbove ext s k j i then 1 else s k j i

/-- _find_faces.py:1580-1584 -/
def spreadBelow (ext : Cell 3) (s : Arr) : Arr := fun k j i => if decide (k ≠ 0) && foundBelow ext s (k - 1) j i then 2 else s k j i

/-- _find_faces.py:1585-1590 -/
def spreadBetween (ext : Cell 3) (s : Arr) : Arr := fun k j i =>
  if foundBetween ext s k j i || (decide (k ≠ 0) && foundBetween ext s (k - 1) j i) then 3 else s k j i

/-- _find_faces.py:1594-1627 `shadow_from_faces`, of which the array of booleans has the given true elements -/
def shadowFromFaces (ext : Cell 3) (kFaces : List (Cell 3)) : Arr :=
  let s := shadowStart kFaces
  let s := shadowLoop ext (foundAbove ext) (spreadAbove ext) (ext 0 - 1) s
  let s := shadowLoop ext (foundBelow ext) (spreadBelow ext) (ext 0 - 1) s
  shadowLoop ext (foundBetween ext) (spreadBetween ext) (ext 0 - 1) s

/-- _find_faces.py:1558-1591 `shadow_from_face_indices`, in which `None` cannot be indexed -/
def shadowFromFaceIndices (ext : Cell 3) (kFaces : Option (List (Cell 3))) : Res Arr :=
  match kFaces with
  | none => .error .type
  | some l => if l.all fun c => inPairs ext (c 0) (c 1) (c 2) then .ok (shadowFromFaces ext l) else .error .index

end Verif.FindFaces
