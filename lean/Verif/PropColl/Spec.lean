import Verif.PropColl.Model

/-!
# What selecting properties from a collection should mean

From the documentation of `selective_version_of_collection` (property_common.py:553-564): an argument left out
lets every member pass; '*' lets those with a value pass, 'none' those without; otherwise the value must be the
given one; all filters must be passed.
-/

namespace Verif.PropColl

/-- the value of an attribute passes a filter -/
def Passes {α : Type} : Arg α → Option α → Prop
  | .unset, _ => True
  | .any, v => v ≠ none
  | .none, v => v = none
  | .is a, v => v = some a

/-- two property kinds are the same, 'permeability rock' and 'rock permeability' being one kind -/
def SameKind (a b : Str) : Prop :=
  a = b ∨ (a = "permeability rock".toList ∧ b = "rock permeability".toList) ∨
    (a = "rock permeability".toList ∧ b = "permeability rock".toList)

/-- the property kind passes a filter -/
def PassesKind : Arg Str → Option Str → Prop
  | .unset, _ => True
  | .any, v => v ≠ none
  | .none, v => v = none
  | .is a, v => ∃ k, v = some k ∧ SameKind k a

/-- a title passes, by mode -/
def PassesTitle (t : Str) (mode : Str) (title : Str) : Prop :=
  (mode = "is".toList ∧ title = t) ∨
  (mode = "starts".toList ∧ t <+: title) ∨
  (mode = "ends".toList ∧ t <:+ title) ∨
  (mode = "contains".toList ∧ t <:+: title) ∨
  (mode = "is not".toList ∧ title ≠ t) ∨
  (mode = "does not start".toList ∧ ¬ t <+: title) ∨
  (mode = "does not end".toList ∧ ¬ t <:+ title) ∨
  (mode = "does not contain".toList ∧ ¬ t <:+: title)

/-- the documented modes -/
def modes : List Str :=
  ["is".toList, "starts".toList, "ends".toList, "contains".toList, "is not".toList, "does not start".toList,
    "does not end".toList, "does not contain".toList]

/-- the mode meant by a mode argument: 'is' if left out -/
def Means (m : Mode) (s : Str) : Prop :=
  match m with
  | .unset => s = "is".toList
  | .flag true => s = "starts".toList
  | .flag false => s = "is".toList
  | .text t => s = t

/-- a property is categorical: it has a table of strings and is not continuous -/
def Categorical (p : Part) : Prop := p.continuous = false ∧ p.stringLookup ≠ none

/-- the part has each of the given items of extra metadata -/
def HasExtra (extra : List (Str × Str)) (p : Part) : Prop :=
  extra ≠ [] → ∃ em, p.extra = some em ∧ ∀ k v, (k, v) ∈ extra → (em.find? (fun e => e.1 = k)).map (·.2) = some v

/-- the part passes all the filters -/
structure Matches (rel : Related) (q : Query) (p : Part) : Prop where
  realization : Passes q.realization p.realization
  support : ∀ s, q.support = some s → p.support = some s
  uuid : Passes q.uuid (some p.uuid)
  continuous : Passes q.continuous (some p.continuous)
  categorical : ∀ b, q.categorical = some b → (b = true ↔ Categorical p)
  count : Passes q.count (some p.count)
  points : Passes q.points (some p.points)
  indexable : Passes q.indexable p.indexable
  kind : PassesKind q.kind p.kind
  facetType : Passes q.facetType p.facetType
  facet : Passes q.facet p.facet
  title : ∀ t, q.title = some t → ∃ m, Means q.mode m ∧ PassesTitle t m p.title
  timeSeries : Passes q.timeSeries p.timeSeries
  timeIndex : Passes q.timeIndex p.timeIndex
  uom : Passes q.uom p.uom
  stringLookup : Passes q.stringLookup p.stringLookup
  related : ∀ u, q.related = some u → ∃ r, rel = some r ∧ r u p.uuid = true
  const : Passes q.const p.constValue
  extra : HasExtra q.extra p

/-- the arguments are ones the selection accepts for the collection: the realization and support agree with
those of the whole collection (if it has any), the title mode is a documented one, the time index is not
negative, a relationship is asked for only if the collection has a model, and `extra` is a dictionary -/
structure Acceptable (rel : Related) (c : Coll) (q : Query) : Prop where
  realization : q.realization = .unset ∨ c.realization = none ∨ ∃ r, q.realization = .is r ∧ c.realization = some r
  support : q.support = none ∨ c.support = none ∨ q.support = c.support
  mode : q.title = none ∨ ∃ m ∈ modes, Means q.mode m
  timeIndex : ∀ n, q.timeIndex = .is n → 0 ≤ n
  related : q.related = none ∨ rel ≠ none
  extra : (q.extra.map (·.1)).Nodup

/-- part names are unique, being the keys of a dictionary -/
def Keyed (l : List Part) : Prop := (l.map (·.name)).Nodup

instance (l : List Part) : Decidable (Keyed l) := inferInstanceAs (Decidable (l.map (·.name)).Nodup)

/-! ### the same property -/

/-- an attribute of a part is that of the example, if the example has one -/
def Same {α : Type} (e p : Option α) : Prop := ∀ v, e = some v → p = some v

/-- a part agrees with the example in all that identifies the property but realization, facet and time -/
structure Alike (e p : Part) : Prop where
  support : Same e.support p.support
  continuous : p.continuous = e.continuous
  points : p.points = e.points
  indexable : Same e.indexable p.indexable
  kind : ∀ k, e.kind = some k → ∃ k', p.kind = some k' ∧ SameKind k' k
  title : p.title = e.title

end Verif.PropColl
