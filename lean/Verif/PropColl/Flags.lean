import Verif.PropColl.Model
import Mathlib.Data.List.Lex
import Mathlib.Data.Char
import Mathlib.Data.Int.Order.Basic

/-!
# Model: attributes of a whole collection, and arrays stacking its members

`resqpy/property/property_collection.py:1513-1675, 1886-2042`, `_collection_get_attributes.py:562-567, 659-760`.

Simplifications: an array is the list of its elements, without element type conversion; an array whose number of
elements is not that of the supporting shape raises ValueError (numpy broadcasting of extents of one is left out).
-/

namespace Verif.PropColl
open Verif.Py

/-- property_collection.py:1558-1565, 1581-1588, 1634-1641: the scan for a common value, from the value found so
far, for the property kind, the indexable element and the unit of measure -/
def singleScan {α : Type} [DecidableEq α] : Option α → List (Option α) → Bool
  | _, [] => true
  | none, v :: t => singleScan v t
  | some c, v :: t => if v = some c then singleScan (some c) t else false

/-- property_collection.py:1552-1566 `establish_has_single_property_kind` -/
def establishKind (c : Coll) : Coll := { c with singleKind := some (singleScan none (c.parts.map (·.kind))) }

/-- property_collection.py:1575-1589 `establish_has_single_indexable_element` -/
def establishIndexable (c : Coll) : Coll :=
  { c with singleIndexable := some (singleScan none (c.parts.map (·.indexable))) }

/-- property_collection.py:1630-1644 `establish_has_single_uom` -/
def establishUom (c : Coll) : Coll := { c with singleUom := some (singleScan none (c.parts.map (·.uom))) }

/-- property_collection.py:1603-1615: the scan for different realizations, with the first one found -/
def multipleScan : Option Int → List (Option Int) → Bool × Option Int
  | c, [] => (false, c)
  | c, none :: t => multipleScan c t
  | none, some r :: t => multipleScan (some r) t
  | some c, some r :: t => if r ≠ c then (true, some c) else multipleScan (some c) t

/-- property_collection.py:1598-1618 `establish_has_multiple_realizations` -/
def establishMultiple (c : Coll) : Coll :=
  let s := multipleScan none (c.parts.map (·.realization))
  { c with multipleRealizations := some s.1,
           realization := if s.1 then none else match s.2 with | some r => some r | none => c.realization }

/-- property_collection.py:1518-1540: the scan for a common time; True is 'single time' -/
def timeScan : Option Int → Option Nat → List (Option Int × Option Nat) → Bool
  | _, _, [] => true
  | cti, cts, (ti, ts) :: t =>
    match ti with
    | none => false
    | some i =>
      if cti.isSome && !(decide (cti = some i)) then false
      else match ts with
        | none => false
        | some u => if cts.isSome && !(decide (cts = some u)) then false else timeScan (some i) (some u) t

/-- property_collection.py:1513-1541 `establish_time_set_kind` -/
def establishTime (c : Coll) : Coll :=
  { c with timeSetKind := some (timeScan none none (c.parts.map fun p => (p.timeIndex, p.timeSeries))) }

/-- property_collection.py:1568-1573 `has_single_property_kind` -/
def hasSingleKind (c : Coll) : Coll × Bool :=
  match c.singleKind with
  | some b => (c, b)
  | none => (establishKind c, (establishKind c).singleKind.getD false)

/-- property_collection.py:1591-1596 `has_single_indexable_element` -/
def hasSingleIndexable (c : Coll) : Coll × Bool :=
  match c.singleIndexable with
  | some b => (c, b)
  | none => (establishIndexable c, (establishIndexable c).singleIndexable.getD false)

/-- property_collection.py:1646-1651 `has_single_uom` -/
def hasSingleUom (c : Coll) : Coll × Bool :=
  match c.singleUom with
  | some b => (c, b)
  | none => (establishUom c, (establishUom c).singleUom.getD false)

/-- property_collection.py:1620-1628 `has_multiple_realizations` -/
def hasMultiple (c : Coll) : Coll × Bool :=
  match c.multipleRealizations with
  | some b => (c, b)
  | none => (establishMultiple c, (establishMultiple c).multipleRealizations.getD false)

/-- property_collection.py:1543-1550 `time_set_kind`; True is 'single time' -/
def timeSetKind (c : Coll) : Coll × Bool :=
  match c.timeSetKind with
  | some b => (c, b)
  | none => (establishTime c, (establishTime c).timeSetKind.getD false)

/-- property_collection.py:1667-1673: the loop numbering the members -/
def number : Int → List Part → List Part
  | _, [] => []
  | r, p :: t => { p with realization := some r } :: number (r + 1) t

/-- property_collection.py:1653-1675 `assign_realization_numbers` -/
def assignRealizations (c : Coll) : Res Coll :=
  let (c, k) := hasSingleKind c
  if !k then .error .assertion
  else
    let (c, i) := hasSingleIndexable c
    if !i then .error .assertion
    else
      let (c, u) := hasSingleUom c
      if !u then .error .assertion
      else .ok { c with parts := number 0 c.parts, multipleRealizations := some (decide (c.parts.length > 1)) }

/-! ### arrays over realizations, times and facets -/

/-- property_collection.py:928, 931: adding to the set of values, kept sorted -/
def insertU {α : Type} [LinearOrder α] (x : α) : List α → List α
  | [] => [x]
  | y :: t => if x = y then y :: t else if x < y then x :: y :: t else y :: insertU x t

/-- property_collection.py:918-932 `unique_element_list`, sorted -/
def uniqueSorted {α : Type} [LinearOrder α] (l : List (Option α)) : List α := (l.filterMap id).foldr insertU []

/-- property_collection.py:1137-1151, _collection_get_attributes.py:701-703: the members are all continuous or all
discrete -/
def oneFlavour : List Part → Bool
  | [] => false
  | p :: t => t.all fun p' => decide (p'.continuous = p.continuous)

/-- _collection_get_attributes.py:687-697, 707-717, 749-759: the checks common to the three stackings -/
def stackChecks (c : Coll) : Res Coll :=
  if c.support = none then .error .assertion
  else if c.parts.length = 0 then .error .assertion
  else
    let (c, k) := hasSingleKind c
    if !k then .error .assertion
    else
      let (c, i) := hasSingleIndexable c
      if !i then .error .assertion
      else
        let (c, u) := hasSingleUom c
        if !u then .error .assertion else .ok c

/-- _collection_get_attributes.py:659-666, 729-736: the slices set by realization or by time index -/
def setSlices (key : Part → Option Int) (arr : Part → List Rat) (n : Nat) (ext : Int) :
    List (List Rat) → List Part → Res (List (List Rat))
  | a, [] => .ok a
  | a, p :: t =>
    match key p with
    | none => .error .assertion
    | some r =>
      if 0 ≤ r ∧ r < ext then
        if (arr p).length = n then setSlices key arr n ext (a.set r.toNat (arr p)) t else .error .value
      else .error .assertion

/-- _collection_get_attributes.py:669-676, 739-746: the slices in the order of the sorted list, each for the one
part found by `singleton` -/
def listSlices (rel : Related) (c : Coll) (query : Int → Query) (arr : Part → List Rat) (n : Nat) :
    List Int → Res (List (List Rat))
  | [] => .ok []
  | r :: t =>
    match singleton rel c (query r) .exception with
    | .error e => .error e
    | .ok none => .error .attribute
    | .ok (some p) =>
      if (arr p).length = n then
        match listSlices rel c query arr n t with
        | .error e => .error e
        | .ok l => .ok (arr p :: l)
      else .error .value

/-- _collection_get_attributes.py:687-704, 562-567 with property_collection.py:1968-1985 and 2018-2042: the array
over one integer attribute -/
def stack (rel : Related) (c : Coll) (key : Part → Option Int) (query : Int → Query) (arr : Part → List Rat) (n : Nat)
    (fillMissing : Bool) (fill : Rat) : Res (List (List Rat)) :=
  match stackChecks c with
  | .error e => .error e
  | .ok c =>
    let keys := uniqueSorted (c.parts.map key)
    if c.parts.length ≠ keys.length then .error .assertion
    else if !(oneFlavour c.parts) then .error .assertion
    else if fillMissing then
      let ext := keys.getLastD 0 + 1
      if ext < 0 then .error .value
      else setSlices key arr n ext (List.replicate ext.toNat (List.replicate n fill)) c.parts
    else listSlices rel c query arr n keys

/-- property_collection.py:1938-1985 `realizations_array_ref` -/
def realizationsArray (rel : Related) (c : Coll) (arr : Part → List Rat) (n : Nat) (fillMissing : Bool) (fill : Rat) :
    Res (List (List Rat)) :=
  stack rel c (·.realization) (fun r => { realization := .is r }) arr n fillMissing fill

/-- property_collection.py:1987-2042 `time_series_array_ref` -/
def timeSeriesArray (rel : Related) (c : Coll) (arr : Part → List Rat) (n : Nat) (fillMissing : Bool) (fill : Rat) :
    Res (List (List Rat)) :=
  stack rel c (·.timeIndex) (fun t => { timeIndex := .is t }) arr n fillMissing fill

/-- property_collection.py:1930-1934: the slices set by the position of the facet in the sorted list -/
def facetSlices (facets : List Str) (arr : Part → List Rat) (n : Nat) : List (List Rat) → List Part → Res (List (List Rat))
  | a, [] => .ok a
  | a, p :: t =>
    match p.facet with
    | none => .error .value
    | some f =>
      if f ∈ facets then
        if (arr p).length = n then facetSlices facets arr n (a.set (facets.idxOf f) (arr p)) t else .error .value
      else .error .value

/-- property_collection.py:1886-1936 `facets_array_ref`, with the facet list it goes with -/
def facetsArray (c : Coll) (arr : Part → List Rat) (n : Nat) : Res (List (List Rat) × List Str) :=
  match stackChecks c with
  | .error e => .error e
  | .ok c =>
    let facets := uniqueSorted (c.parts.map (·.facet))
    if facets.length = 0 then .error .assertion
    else if c.parts.length ≠ facets.length then .error .assertion
    else if !(oneFlavour c.parts) then .error .assertion
    else match facetSlices facets arr n (List.replicate facets.length (List.replicate n 0)) c.parts with
      | .error e => .error e
      | .ok a => .ok (a, facets)

end Verif.PropColl
