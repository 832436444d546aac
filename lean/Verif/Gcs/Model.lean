import Verif.Py.Basic
import Mathlib.Data.List.Sort
import Mathlib.Data.List.Dedup

/-!
# Model of `GridConnectionSet` in `resqpy/fault/_grid_connection_set.py`

Single grid connection sets only (the multi-grid arrays are not modelled).  Cell and face indices are natural numbers; the null
values (-1) for absent sides are not modelled.  `count` is the length of the list of connections.
-/

namespace Verif.Gcs
open Verif.Py

/-- extent of the grid; for `assignSide` (_grid_connection_set.py:2271-2291) -/
structure Ext where
  nk : Nat
  nj : Nat
  ni : Nat
  deriving DecidableEq, Repr

/-- cell indices in kji0 protocol -/
abbrev Cell := Nat × Nat × Nat

/-- resqpy/grid/_grid.py:272-275 `Grid.natural_cell_index` (and :277-287 for arrays) -/
def natural (e : Ext) (c : Cell) : Nat := (c.1 * e.nj + c.2.1) * e.ni + c.2.2

/-- resqpy/grid/_grid.py:289-294 `Grid.denaturalized_cell_index` (and :296-308 for arrays) -/
def denatural (e : Ext) (c : Nat) : Cell :=
  (c / (e.nj * e.ni), (c % (e.nj * e.ni)) / e.ni, (c % (e.nj * e.ni)) % e.ni)

/-- `face_index_map`, _grid_connection_set.py:141 -/
def faceIndexMap (axis p : Nat) : Nat :=
  match axis, p with
  | 0, 0 => 0 | 0, _ => 1
  | 1, 0 => 2 | 1, _ => 4
  | _, 0 => 5 | _, _ => 3

/-- `face_index_inverse_map`, _grid_connection_set.py:144 -/
def faceIndexInverse (f : Nat) : Nat × Nat :=
  match f with
  | 0 => (0, 0) | 1 => (0, 1) | 2 => (1, 0) | 3 => (2, 1) | 4 => (1, 1) | _ => (2, 0)

/-- a row of `cell_index_pairs` and `face_index_pairs`; for `assignSide` (_grid_connection_set.py:2271-2291) -/
structure Conn where
  cell0 : Nat
  cell1 : Nat
  face0 : Nat
  face1 : Nat
  deriving DecidableEq, Repr

/-- an entry of `feature_list`: content type, uuid, title; for `combineFeatures` (_grid_connection_set.py:1970-1980) -/
structure Feature where
  ctype : String
  uuid : Nat
  title : String
  deriving DecidableEq, Repr

/-- the arrays of a single grid connection set, all cached; for `fromFaceMasks` (_grid_connection_set.py:619-675) -/
structure Gcs where
  conns : List Conn
  featureIndices : Option (List Nat)
  featureList : Option (List Feature)
  deriving DecidableEq, Repr

/-! ## Construction from faces -/

/-- indices of an array of the given shape in row major order (`np.stack(np.where(...)).T` before filtering); for `fromFaceMasks` (_grid_connection_set.py:619-675) -/
def triples (a b c : Nat) : List Cell :=
  (List.range a).flatMap fun k => (List.range b).flatMap fun j => (List.range c).map fun i => (k, j, i)

/-- the connections for the faces of one axis, _grid_connection_set.py:638-670: `step` is the distance in natural index between
neighbours along the axis, `flip` is the sides array -/
def axisConns (e : Ext) (axis step : Nat) (shape : List Cell) (faces flip : Cell → Bool) : List Conn :=
  (shape.filter faces).map fun c =>
    let cell := natural e c
    if flip c then ⟨cell + step, cell, faceIndexMap axis 0, faceIndexMap axis 1⟩
    else ⟨cell, cell + step, faceIndexMap axis 1, faceIndexMap axis 0⟩

/-- face masks and sides for the three axes; an absent array is one that is False everywhere; for `fromFaceMasks` (_grid_connection_set.py:619-675) -/
structure Masks where
  faces : Nat → Cell → Bool
  sides : Nat → Cell → Bool

/-- _grid_connection_set.py:619-675 `set_pairs_from_face_masks`; the organizing objects are given by the feature -/
def fromFaceMasks (e : Ext) (m : Masks) (f : Feature) : Gcs :=
  let cs := axisConns e 0 (e.nj * e.ni) (triples (e.nk - 1) e.nj e.ni) (m.faces 0) (m.sides 0) ++
    axisConns e 1 e.ni (triples e.nk (e.nj - 1) e.ni) (m.faces 1) (m.sides 1) ++
    axisConns e 2 1 (triples e.nk e.nj (e.ni - 1)) (m.faces 2) (m.sides 2)
  ⟨cs, some (cs.map fun _ => 0), some [f]⟩

/-- resqpy/fault/_gcs_functions.py:169-178: faces between a cell in the set and one not in it -/
def skinMasks (cellSet : Cell → Bool) : Masks where
  faces axis c := match axis with
    | 0 => cellSet (c.1 + 1, c.2.1, c.2.2) != cellSet c
    | 1 => cellSet (c.1, c.2.1 + 1, c.2.2) != cellSet c
    | _ => cellSet (c.1, c.2.1, c.2.2 + 1) != cellSet c
  sides _ _ := false

/-- resqpy/fault/_gcs_functions.py:133-190 `cell_set_skin_connection_set` -/
def skinConnectionSet (e : Ext) (cellSet : Cell → Bool) (f : Feature) : Gcs := fromFaceMasks e (skinMasks cellSet) f

/-- `list_of_cell_face_pairs_for_feature_index(None)` for one row, _grid_connection_set.py:1176-1212: each side's cell indices,
and face as axis and polarity -/
def decode (e : Ext) (c : Conn) : (Cell × (Nat × Nat)) × (Cell × (Nat × Nat)) :=
  ((denatural e c.cell0, faceIndexInverse c.face0), (denatural e c.cell1, faceIndexInverse c.face1))

/-- `m[0] = True; m[1:] = (a[1:] != a[:-1])` at _grid_connection_set.py:2317-2319 -/
def firstOfRun : Option Nat → List Nat → List Bool
  | _, [] => []
  | prev, x :: xs => (prev != some x) :: firstOfRun (some x) xs

/-- numpy indexing by a boolean mask of the same length; for `sortAndRemoveDuplicates` (_grid_connection_set.py:2302-2326) -/
def select {α : Type} (m : List Bool) (l : List α) : List α := (l.zip m).filterMap fun p => if p.2 then some p.1 else none

/-- numpy indexing by a list of indices, all of which must be within the array; for `sortAndRemoveDuplicates` (_grid_connection_set.py:2302-2326) -/
def takeIdx {α : Type} (l : List α) (idx : List Nat) : Option (List α) := idx.mapM fun i => l[i]?

/-- _grid_connection_set.py:2302-2326 `_sort_and_remove_duplicates`: the sorted values and the property arrays.  `argsort` is
numpy's `argsort`: some permutation of the positions that sorts the values.  An index error is `none`. -/
def sortAndRemoveDuplicates {V : Type} (argsort : List Nat → List Nat) (a : List Nat) (props : List (List V)) :
    Option (List Nat × List (List V)) :=
  if a.length ≤ 1 then some (a, props)
  else if props = [] then
    let s := a.insertionSort (· ≤ ·)
    let m := firstOfRun none s
    if m.all id then some (s, []) else some (select m s, [])
  else
    let si := argsort a
    match takeIdx a si with
    | none => none
    | some s =>
      let m := firstOfRun none s
      if m.all id then some (s, props)
      else match props.mapM (fun p => takeIdx p si) with
        | none => none
        | some ps => some (select m s, ps.map (select m))

/-- the connections for one axis in `from_faces_indices`, _grid_connection_set.py:255-304 -/
def indexConns (axis step : Nat) (ci : List Nat) : List Conn :=
  ci.map fun c => ⟨c, c + step, faceIndexMap axis 1, faceIndexMap axis 0⟩

/-- _grid_connection_set.py:201-309 `from_faces_indices` without properties and with `remove_duplicates` -/
def fromFacesIndices (e : Ext) (kf jf if' : List Cell) (f : Feature) : Gcs :=
  let sorted (l : List Cell) : List Nat :=
    match sortAndRemoveDuplicates (V := Unit) (fun _ => []) (l.map (natural e)) [] with
    | some (s, _) => s
    | none => []
  let cs := indexConns 0 (e.nj * e.ni) (sorted kf) ++ indexConns 1 e.ni (sorted jf) ++ indexConns 2 1 (sorted if')
  ⟨cs, some (cs.map fun _ => 0), some [f]⟩

/-! ## Selecting and combining -/

/-- one step of the renumbering loop of `clean_feature_list`: `self.feature_indices[...== keep] = i`; for `cleanLoop` (_grid_connection_set.py:920-924) -/
def renumber (keep i : Nat) (fi : List Nat) : List Nat := fi.map fun x => if x = keep then i else x

/-- loop at _grid_connection_set.py:920-924; `feature_list[keep_list[i]]` outside the list is an IndexError -/
def cleanLoop (fl : List Feature) : Nat → List Nat → List Nat → Res (List Nat × List Feature)
  | _, [], fi => .ok (fi, [])
  | i, k :: ks, fi =>
    if i ≤ k then
      match fl[k]? with
      | none => .error .index
      | some f => match cleanLoop fl (i + 1) ks (if i ≠ k then renumber k i fi else fi) with
        | .error x => .error x
        | .ok (fi', cl) => .ok (fi', f :: cl)
    else .error .assertion

/-- _grid_connection_set.py:924-937 `clean_feature_list`; `np.unique` is the sorted list of distinct values -/
def cleanFeatureList (fi : List Nat) (fl : List Feature) : Res (List Nat × List Feature) :=
  let keep := fi.dedup.insertionSort (· ≤ ·)
  if keep.length = fl.length then .ok (fi, fl) else cleanLoop fl 0 keep fi

/-- _grid_connection_set.py:867-922 `filtered_by_cell_mask`: the new set and the selected indices, None if there are none.
`self.feature_indices[indices]` and `self.feature_list.copy()` on None raise TypeError and AttributeError. -/
def filteredByCellMask (g : Gcs) (mask : Nat → Bool) (bothRequired pareDown : Bool) : Res (Option (Gcs × List Nat)) :=
  let ok := fun c : Conn => if bothRequired then mask c.cell0 && mask c.cell1 else mask c.cell0 || mask c.cell1
  let indices := (List.range g.conns.length).filter fun i => match g.conns[i]? with
    | some c => ok c
    | none => false
  if indices = [] then .ok none
  else
    match takeIdx g.conns indices with
    | none => .error .index
    | some cs =>
      match g.featureIndices with
      | none => .error .type
      | some fi => match takeIdx fi indices with
        | none => .error .index
        | some fi' => match g.featureList with
          | none => .error .attribute
          | some fl =>
            if pareDown then
              match cleanFeatureList fi' fl with
              | .error x => .error x
              | .ok (fi'', fl') => .ok (some (⟨cs, some fi'', some fl'⟩, indices))
            else .ok (some (⟨cs, some fi', some fl⟩, indices))

/-- _grid_connection_set.py:743-789 `append`: the contents of another set added to this one -/
def append (g o : Gcs) : Gcs :=
  if g.conns.length = 0 then o
  else
    match g.featureList, o.featureList with
    | some fl, some fl' =>
      ⟨g.conns ++ o.conns,
        match g.featureIndices, o.featureIndices with
        | some fi, some fi' => some (fi ++ fi'.map (· + fl.length))
        | _, _ => none,
        some (fl ++ fl')⟩
    | _, _ => ⟨g.conns ++ o.conns, none, none⟩

/-- _grid_connection_set.py:816-865 `filtered_by_layer_range`; comparing None with an int raises TypeError.  The cell mask of the
layers is given by its effect on natural cell indices; a maximum layer below -1, which numpy would count from the end, is not
modelled. -/
def filteredByLayerRange (e : Ext) (g : Gcs) (minK maxK : Option Int) (pareDown : Bool) : Res (Option (Gcs × List Nat)) :=
  match minK with
  | none => .error .type
  | some lo => match maxK with
    | none => .error .type
    | some hi =>
      let minK := if lo ≤ 0 then none else some lo
      let maxK := if hi ≥ (e.nk : Int) - 1 then none else some hi
      match minK, maxK with
      | none, none => .ok (some (append ⟨[], none, none⟩ g, List.range g.conns.length))
      | some lo, some hi => filteredByCellMask g (fun c => decide (lo ≤ ((denatural e c).1 : Int)) && decide (((denatural e c).1 : Int) ≤ hi)) true pareDown
      | some lo, none => filteredByCellMask g (fun c => decide (lo ≤ ((denatural e c).1 : Int))) true pareDown
      | none, some hi => filteredByCellMask g (fun c => decide (((denatural e c).1 : Int) ≤ hi)) true pareDown

/-- _grid_connection_set.py:1113-1120 `indices_for_feature_index` -/
def indicesForFeature (fi : List Nat) (f : Nat) : List Nat :=
  (List.range fi.length).filter fun i => match fi[i]? with
    | some x => x == f
    | none => false

/-- _grid_connection_set.py:791-814 `single_feature`, given an index -/
def singleFeature (g : Gcs) (f : Nat) : Res (Option Gcs) :=
  match g.featureList with
  | none => .error .type
  | some fl => match fl[f]? with
    | none => .ok none
    | some ft => match g.featureIndices with
      | none => .error .type
      | some fi => match takeIdx g.conns (indicesForFeature fi f) with
        | none => .error .index
        | some cs => .ok (some ⟨cs, some (cs.map fun _ => 0), some [ft]⟩)

/-- _grid_connection_set.py:1046-1070 `feature_index_and_uuid_for_fault_name`: the first feature whose title starts with the name -/
def featureIndexForName (fl : List Feature) (name : String) : Option (Nat × Nat) :=
  (fl.zipIdx.find? fun p => name.toList.isPrefixOf p.1.title.toList).map fun p => (p.2, p.1.uuid)

end Verif.Gcs
