import Verif.FineCoarse.Model

/-! # Model of the properties a refined grid inherits

`resqpy/property/grid_property_collection.py`, the part for which there is no coarsening, with a refinement and no box. -/

namespace Verif.Refine
open Verif.Py Verif.FineCoarse

/-- What is used of the entry of a property in a collection (`info`), with the array of a property which is not constant and its shape; for `resample` (grid_property_collection.py:1147-1170) -/
structure Item where
  realization : Option Int
  continuous : Bool
  count : Nat
  indexable : String
  kind : String
  facetType : Option String
  facet : Option String
  title : String
  uom : Option String
  lookup : Option String
  constant : Option Rat
  shape : Int × Int × Int
  values : Nat → Nat → Nat → Rat

/-- What is recorded in the imported list; a value of the array is none where it is not determined by the model; for `inheritOne` (grid_property_collection.py:1119-1144) -/
structure Imported where
  realization : Option Int
  discrete : Bool
  indexable : String
  kind : String
  facetType : Option String
  facet : Option String
  title : String
  uom : Option String
  lookup : Option String
  constant : Option Rat
  values : Option (Nat → Nat → Nat → Option Rat)

/-- an element of a vector of indices; for `resample` (grid_property_collection.py:1147-1170) -/
def look (v : AxisMap) (f : Nat) : Option Nat := match v[f]? with
  | some (some c) => some c.toNat
  | _ => none

/-- `refinement.coarse_for_fine_axial_vector(axis)` three times in a row, the object being changed by the first; for `resample` (grid_property_collection.py:1147-1170) -/
def vectors (s : FC) : Res (AxisMap × AxisMap × AxisMap) :=
  match coarseForFineAxialVector s 0 with
  | (s, .ok (some k)) => match coarseForFineAxialVector s 1 with
    | (s, .ok (some j)) => match coarseForFineAxialVector s 2 with
      | (_, .ok (some i)) => .ok (k, j, i)
      | (_, .ok none) => .error .type
      | (_, .error e) => .error e
    | (_, .ok none) => .error .type
    | (_, .error e) => .error e
  | (_, .ok none) => .error .type
  | (_, .error e) => .error e

/-- grid_property_collection.py:1173-1182 `_extend_imported_no_coarsening_single_resampling_length`; `upper` is `str.upper` -/
def scaleLengths (upper : String → String) (s : FC) (facet : Option String) (a : Nat → Nat → Nat → Option Rat) :
    Res (Nat → Nat → Nat → Option Rat) :=
  match facet with
  | none => .error .attribute
  | some f =>
    if upper f = "K" then match (s.ax 0).proportionsForAxis with
      | .error e => .error e
      | .ok p => .ok fun k j i => match a k j i, p[k]? with
        | some x, some y => some (x * y)
        | _, _ => none
    else if upper f = "J" then match (s.ax 1).proportionsForAxis with
      | .error e => .error e
      | .ok p => .ok fun k j i => match a k j i, p[j]? with
        | some x, some y => some (x * y)
        | _, _ => none
    else if upper f = "I" then match (s.ax 2).proportionsForAxis with
      | .error e => .error e
      | .ok p => .ok fun k j i => match a k j i, p[i]? with
        | some x, some y => some (x * y)
        | _, _ => none
    else .ok a

/-- grid_property_collection.py:1147-1170 `_extend_imported_no_coarsening_single_resampling`, for a collection of the refined grid;
no array for elements other than cells -/
def resample (upper : String → String) (s : FC) (it : Item) : Res (Option (Nat → Nat → Nat → Option Rat)) :=
  if it.indexable ≠ "cells" then .ok none
  else if it.shape ≠ ((s.ax 0).coarse, (s.ax 1).coarse, (s.ax 2).coarse) then .error .assertion
  else match vectors s with
    | .error e => .error e
    | .ok (kv, jv, iv) =>
      let a := fun k j i => match look kv k, look jv j, look iv i with
        | some k', some j', some i' => some (it.values k' j' i')
        | _, _, _ => none
      if it.continuous && it.kind == "cell length" && it.facetType == some "direction" && it.count == 1 then
        match scaleLengths upper s it.facet a with
        | .error e => .error e
        | .ok a => .ok (some a)
      else .ok (some a)

/-- grid_property_collection.py:1119-1144, the rest of `_extend_imported_no_coarsening_single`: the string lookup and the null value
are not handed on; with the first assertion of `add_cached_array_to_imported_list`, property_collection.py:2271 -/
def inheritOne (upper : String → String) (s : FC) (it : Item) : Res Imported :=
  let rec' := fun values => ({ realization := it.realization, discrete := !it.continuous, indexable := "cells", kind := it.kind
                               facetType := it.facetType, facet := it.facet, title := it.title, uom := it.uom, lookup := none
                               constant := it.constant, values := values } : Imported)
  match it.constant with
  | some _ => .ok (rec' none)
  | none => match resample upper s it with
    | .error e => .error e
    | .ok none => .error .assertion
    | .ok (some a) => .ok (rec' (some a))

/-- grid_property_collection.py:1102-1117 `_extend_imported_no_coarsening` and the test at the start of
`_extend_imported_no_coarsening_single`; the selective version of the collection has the properties of the realization -/
def inheritAll (upper : String → String) (s : FC) (realization : Option Int) (copyAll : Bool) (items : List Item) : Res (List Imported) :=
  loop (match realization with
    | none => items
    | some r => items.filter fun it => it.realization == some r)
where
  loop : List Item → Res (List Imported)
    | [] => .ok []
    | it :: items =>
      if !copyAll && it.realization != realization then loop items
      else match inheritOne upper s it with
        | .error e => .error e
        | .ok x => match loop items with
          | .error e => .error e
          | .ok xs => .ok (x :: xs)

end Verif.Refine
