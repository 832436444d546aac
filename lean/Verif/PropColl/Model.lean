import Verif.Py.Basic

/-!
# Model: collections of properties — members, selection, inheritance

`resqpy/property/property_collection.py`, `_collection_add_part.py`, `property_common.py`.

Simplifications: a collection is its dictionary as a list of entries in insertion order, with the part name in
the entry; uuids are numbers; texts are lists of characters; the model of two collections is the same object;
loading the supporting representation succeeds; warnings are left out.
-/

namespace Verif.PropColl
open Verif.Py

/-- a text; for `Part` (property_collection.py:64-72) -/
abbrev Str := List Char

/-- property_collection.py:64-72: an entry of the collection's dictionary, with its key.  The xml node and the
items no function here looks at are left out. -/
structure Part where
  name : Nat
  realization : Option Int := none
  support : Option Nat := none
  uuid : Nat := 0
  continuous : Bool := true
  count : Nat := 1
  indexable : Option Str := none
  kind : Option Str := none
  facetType : Option Str := none
  facet : Option Str := none
  title : Str := []
  timeSeries : Option Nat := none
  timeIndex : Option Int := none
  uom : Option Str := none
  stringLookup : Option Nat := none
  extra : Option (List (Str × Str)) := none
  nullValue : Option Int := none
  constValue : Option Rat := none
  points : Bool := false
deriving DecidableEq

/-- an argument of a selection: left out, the text '*', the text 'none', or a value
(property_common.py:556-558) -/
inductive Arg (α : Type) where
  | unset
  | any
  | none
  | is (v : α)
deriving DecidableEq

/-- the title mode argument: left out, a boolean (older calls), or a text; for `titleFails`
(_collection_add_part.py:161-183) -/
inductive Mode where
  | unset
  | flag (b : Bool)
  | text (s : Str)
deriving DecidableEq

/-- the filtering arguments of property_collection.py:437-461; `support` is a uuid (the texts '*' and 'none' for
it are left out) and `extra` is a dictionary, empty if left out -/
structure Query where
  realization : Arg Int := .unset
  support : Option Nat := none
  uuid : Arg Nat := .unset
  continuous : Arg Bool := .unset
  categorical : Option Bool := none
  count : Arg Nat := .unset
  points : Arg Bool := .unset
  indexable : Arg Str := .unset
  kind : Arg Str := .unset
  facetType : Arg Str := .unset
  facet : Arg Str := .unset
  title : Option Str := none
  mode : Mode := .unset
  timeSeries : Arg Nat := .unset
  timeIndex : Arg Int := .unset
  uom : Arg Str := .unset
  stringLookup : Arg Nat := .unset
  related : Option Nat := none
  const : Arg Rat := .unset
  extra : List (Str × Str) := []

/-- _collection_add_part.py:140-147 `_check_not_none_and_not_equals`, and 150-158 for uuids, where
`matching_uuids` (olio/uuid.py:162-184) is False for None -/
def argFails {α : Type} [DecidableEq α] : Arg α → Option α → Bool
  | .unset, _ => false
  | .any, v => v.isNone
  | .none, v => v.isSome
  | .is a, v => !(decide (v = some a))

/-- the text given for an argument; for `kindFails` (_collection_add_part.py:38) -/
def argText : Arg Str → Option Str
  | .unset => none
  | .any => some ['*']
  | .none => some ['n', 'o', 'n', 'e']
  | .is s => some s

/-- the texts of property_common.py:92 `['permeability rock', 'rock permeability']` -/
def permeabilityKinds : List Str := ["permeability rock".toList, "rock permeability".toList]

/-- property_common.py:85-94 `same_property_kind` -/
def sameKind (a b : Option Str) : Bool :=
  match a, b with
  | some a, some b =>
    if a = b then true
    else if a ∈ permeabilityKinds ∧ b ∈ permeabilityKinds then true
    else false
  | _, _ => false

/-- _collection_add_part.py:38: the property kind filter -/
def kindFails (a : Arg Str) (k : Option Str) : Bool :=
  (argText a).isSome && !(sameKind k (argText a))

/-- `needle in text`; for `titleFails` (_collection_add_part.py:161-183) -/
def contains (needle : Str) : Str → Bool
  | [] => needle.isPrefixOf []
  | c :: t => needle.isPrefixOf (c :: t) || contains needle t

/-- _collection_add_part.py:163-182: the test of a title against a given title, by mode -/
def titleModeFails (t : Str) (mode : Str) (title : Str) : Res Bool :=
  if mode = "is".toList then .ok (!(decide (title = t)))
  else if mode = "starts".toList then .ok (!(t.isPrefixOf title))
  else if mode = "ends".toList then .ok (!(t.isSuffixOf title))
  else if mode = "contains".toList then .ok (!(contains t title))
  else if mode = "is not".toList then .ok (decide (title = t))
  else if mode = "does not start".toList then .ok (t.isPrefixOf title)
  else if mode = "does not end".toList then .ok (t.isSuffixOf title)
  else if mode = "does not contain".toList then .ok (contains t title)
  else .error .value

/-- _collection_add_part.py:163-165: the mode after resolving booleans and None -/
def modeText : Mode → Str
  | .unset => "is".toList
  | .flag b => if b then "starts".toList else "is".toList
  | .text s => s

/-- _collection_add_part.py:161-183 `_check_citation_title` -/
def titleFails (t : Option Str) (m : Mode) (title : Str) : Res Bool :=
  match t with
  | none => .ok false
  | some t => titleModeFails t (modeText m) title

/-- _collection_add_part.py:186-194 `_check_categorical_and_lookup` -/
def categoricalFails (c : Option Bool) (p : Part) : Bool :=
  match c with
  | none => false
  | some true => p.continuous || p.stringLookup.isNone
  | some false => !(p.continuous || p.stringLookup.isNone)

/-- dictionary access `em.get(key)`; for `extraFails` (_collection_add_part.py:58-64) -/
def get (em : List (Str × Str)) (k : Str) : Option Str := (em.find? (fun e => decide (e.1 = k))).map (·.2)

/-- _collection_add_part.py:58-64: the extra metadata filter -/
def extraFails (extra : List (Str × Str)) (em : Option (List (Str × Str))) : Bool :=
  if extra.length = 0 then false
  else match em with
    | none => true
    | some em => if em.length < extra.length then true else extra.any fun e => !(decide (get em e.1 = some e.2))

/-- what the other collection's model knows of relationships, None if the collection has no model; for
`relatedFails` (_collection_add_part.py:54-57) -/
abbrev Related := Option (Nat → Nat → Bool)

/-- _collection_add_part.py:54-57: the relationship filter -/
def relatedFails (rel : Related) (q : Option Nat) (p : Part) : Res Bool :=
  match q with
  | none => .ok false
  | some u => match rel with
    | none => .error .assertion
    | some r => .ok (!(r u p.uuid))

/-- a value that may be None used as an argument: None is no filter; for `failsBeforeTitle`
(_collection_add_part.py:24) and `timeSeriesQuery` (property_collection.py:531-543) -/
def like {α : Type} : Option α → Arg α
  | none => .unset
  | some v => .is v

/-- the filters of _collection_add_part.py:22-43 that precede the title -/
def failsBeforeTitle (q : Query) (p : Part) : Bool :=
  argFails q.realization p.realization ||
  argFails (like q.support) p.support ||
  argFails q.uuid (some p.uuid) ||
  argFails q.continuous (some p.continuous) ||
  categoricalFails q.categorical p ||
  argFails q.count (some p.count) ||
  argFails q.points (some p.points) ||
  argFails q.indexable p.indexable ||
  kindFails q.kind p.kind ||
  argFails q.facetType p.facetType ||
  argFails q.facet p.facet

/-- the filters of _collection_add_part.py:46-53 that follow the title -/
def failsAfterTitle (q : Query) (p : Part) : Bool :=
  argFails q.timeSeries p.timeSeries ||
  argFails q.timeIndex p.timeIndex ||
  argFails q.stringLookup p.stringLookup ||
  argFails q.const p.constValue

/-- _collection_add_part.py:22-64: whether a part is passed over.  There is no filter for the unit of measure:
the caller (property_collection.py:495-500) does not pass it on. -/
def skipped (rel : Related) (q : Query) (p : Part) : Res Bool :=
  if failsBeforeTitle q p then .ok true
  else match titleFails q.title q.mode p.title with
    | .error e => .error e
    | .ok true => .ok true
    | .ok false =>
      if failsAfterTitle q p then .ok true
      else match relatedFails rel q.related p with
        | .error e => .error e
        | .ok true => .ok true
        | .ok false => .ok (extraFails q.extra p.extra)

/-- `part in collection.dict.keys()`; for `addSelected` (_collection_add_part.py:18-69) -/
def hasName (l : List Part) (n : Nat) : Bool := l.any fun p => decide (p.name = n)

/-- property_collection.py:495-500 with _collection_add_part.py:18-69: the loop over the other collection's
dictionary.  The state reached is kept when an exception is raised. -/
def addSelected (rel : Related) (q : Query) (ignoreClashes : Bool) : List Part → List Part → List Part × Option PyErr
  | d, [] => (d, none)
  | d, p :: t =>
    match skipped rel q p with
    | .error e => (d, some e)
    | .ok true => addSelected rel q ignoreClashes d t
    | .ok false =>
      if hasName d p.name then
        if ignoreClashes then addSelected rel q ignoreClashes d t else (d, some .assertion)
      else addSelected rel q ignoreClashes (d ++ [p]) t

/-- property_collection.py:37-87: a collection: its members, the realization and supporting representation of
the whole, and the attributes established on demand -/
structure Coll where
  parts : List Part := []
  realization : Option Int := none
  support : Option Nat := none
  timeSetKind : Option Bool := none
  singleKind : Option Bool := none
  singleUom : Option Bool := none
  singleIndexable : Option Bool := none
  multipleRealizations : Option Bool := none

/-- property_collection.py:384-385, 490-491: both realizations given and different -/
def realizationClash (a b : Option Int) : Bool :=
  match a, b with
  | some x, some y => !(decide (x = y))
  | _, _ => false

/-- property_collection.py:380-381, _collection_support.py:108-109: both supports given and different -/
def supportClash (a b : Option Nat) : Bool :=
  match a, b with
  | some x, some y => !(decide (x = y))
  | _, _ => false

/-- property_collection.py:382-383, _collection_support.py:110-111: an empty collection without a support takes
the support of the other -/
def adoptSupport (c other : Coll) : Coll :=
  if c.support.isNone && decide (c.parts.length = 0) then { c with support := other.support } else c

/-- property_collection.py:370-391: the loop of `inherit_parts_from_other_collection` -/
def addAll (ignoreClashes : Bool) : List Part → List Part → List Part × Option PyErr
  | d, [] => (d, none)
  | d, p :: t =>
    if hasName d p.name then
      if ignoreClashes then addAll ignoreClashes d t else (d, some .assertion)
    else addAll ignoreClashes (d ++ [p]) t

/-- property_collection.py:370-391 `inherit_parts_from_other_collection` -/
def inheritAll (c other : Coll) (ignoreClashes : Bool) : Coll × Option PyErr :=
  if supportClash c.support other.support then (c, some .assertion)
  else if realizationClash c.realization other.realization then (adoptSupport c other, some .assertion)
  else
    let r := addAll ignoreClashes c.parts other.parts
    ({ adoptSupport c other with parts := r.1 }, r.2)

/-- property_collection.py:492-493: the test of the time index argument; comparing a text with zero raises
TypeError -/
def timeIndexError : Arg Int → Option PyErr
  | .unset => none
  | .is n => if n ≥ 0 then none else some .assertion
  | _ => some .type

/-- property_collection.py:437-500 `inherit_parts_selectively_from_other_collection` with
_collection_support.py:105-124 -/
def inheritSelectively (rel : Related) (c other : Coll) (q : Query) (ignoreClashes : Bool) : Coll × Option PyErr :=
  if supportClash q.support c.support then (c, some .assertion)
  else if supportClash c.support other.support then (c, some .assertion)
  else if realizationClash c.realization other.realization then (adoptSupport c other, some .assertion)
  else match timeIndexError q.timeIndex with
    | some e => (adoptSupport c other, some e)
    | none =>
      let r := addSelected rel q ignoreClashes c.parts other.parts
      ({ adoptSupport c other with parts := r.1 }, r.2)

/-- property_common.py:568-572, property_collection.py:490-491: the realization given to the view against that of
the collection; the texts '*' and 'none' differ from any number -/
def viewRealizationClash (a : Arg Int) (b : Option Int) : Bool :=
  match a, b with
  | .unset, _ => false
  | _, none => false
  | .is x, some y => !(decide (x = y))
  | _, some _ => true

/-- property_common.py:567-596 `selective_version_of_collection`: the members of the view; `title` has been
merged with `citation_title` (573-574) -/
def selectiveVersion (rel : Related) (c : Coll) (q : Query) : Res (List Part) :=
  if supportClash q.support c.support then .error .assertion
  else if viewRealizationClash q.realization c.realization then .error .assertion
  else match timeIndexError q.timeIndex with
    | some e => .error e
    | none => match addSelected rel q false [] c.parts with
      | (l, none) => .ok l
      | (_, some e) => .error e

/-- property_collection.py:749 what to do when several parts match; 'oldest' and 'newest' are left out; for
`singleton` (property_collection.py:725-792) -/
inductive Multiple where
  | exception
  | none
  | first
deriving DecidableEq

/-- property_collection.py:725-792 `singleton`; when several parts match, the choice is that of `Model.part`
(C14), given the parts in order -/
def singleton (rel : Related) (c : Coll) (q : Query) (mult : Multiple) : Res (Option Part) :=
  match selectiveVersion rel c q with
  | .error e => .error e
  | .ok [] => .ok none
  | .ok [p] => .ok (some p)
  | .ok (p :: _) =>
    if mult = .exception ∨ rel.isNone then .error .assertion
    else if mult = .first then .ok (some p)
    else .ok none

/-- property_collection.py:523-543: the arguments of `inherit_similar_parts_for_time_series_from_other_collection`,
for an example part with a time series -/
def timeSeriesQuery (e : Part) (mode : Mode) : Query :=
  { realization := like e.realization, support := e.support, continuous := .is e.continuous,
    points := .is e.points, indexable := like e.indexable, kind := like e.kind, facetType := like e.facetType,
    facet := like e.facet, title := some e.title, mode := mode, timeSeries := like e.timeSeries }

/-- property_collection.py:566-586: the arguments of `inherit_similar_parts_for_facets_from_other_collection` -/
def facetsQuery (e : Part) (mode : Mode) : Query :=
  { realization := like e.realization, support := e.support, continuous := .is e.continuous,
    points := .is false, indexable := like e.indexable, kind := like e.kind, title := some e.title, mode := mode,
    timeSeries := like e.timeSeries, timeIndex := like e.timeIndex }

/-- property_collection.py:609-629: the arguments of
`inherit_similar_parts_for_realizations_from_other_collection` -/
def realizationsQuery (e : Part) (mode : Mode) : Query :=
  { support := e.support, continuous := .is e.continuous, points := .is e.points, indexable := like e.indexable,
    kind := like e.kind, facetType := like e.facetType, facet := like e.facet, title := some e.title, mode := mode,
    timeSeries := like e.timeSeries, timeIndex := like e.timeIndex }

/-- `element_for_part` (property_collection.py:906-914): the entry for a part name -/
def entry (c : Coll) (n : Nat) : Option Part := c.parts.find? fun p => decide (p.name = n)

/-- property_collection.py:502-543 `inherit_similar_parts_for_time_series_from_other_collection` -/
def inheritTimeSeries (rel : Related) (c other : Coll) (example' : Nat) (mode : Mode) (ig : Bool) :
    Coll × Option PyErr :=
  match entry other example' with
  | none => (c, some .assertion)
  | some e =>
    if e.timeSeries = none then (c, some .assertion)
    else inheritSelectively rel c other (timeSeriesQuery e mode) ig

/-- property_collection.py:545-586 `inherit_similar_parts_for_facets_from_other_collection` -/
def inheritFacets (rel : Related) (c other : Coll) (example' : Nat) (mode : Mode) (ig : Bool) :
    Coll × Option PyErr :=
  match entry other example' with
  | none => (c, some .assertion)
  | some e =>
    if e.points then (c, some .assertion)
    else inheritSelectively rel c other (facetsQuery e mode) ig

/-- property_collection.py:588-629 `inherit_similar_parts_for_realizations_from_other_collection` -/
def inheritRealizations (rel : Related) (c other : Coll) (example' : Nat) (mode : Mode) (ig : Bool) :
    Coll × Option PyErr :=
  match entry other example' with
  | none => (c, some .assertion)
  | some e => inheritSelectively rel c other (realizationsQuery e mode) ig

/-- property_collection.py:309-323 `remove_part_from_dict` -/
def removePart (c : Coll) (n : Nat) : Coll := { c with parts := c.parts.filter fun p => !(decide (p.name = n)) }

end Verif.PropColl
