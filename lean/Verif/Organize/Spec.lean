import Verif.Organize.Model

/-!
# Specification: features, interpretations and stratigraphic columns

Independent of the xml trees and of the methods which compare and store objects.
-/

namespace Verif.Organize

open Verif.Py

/-- A text which survives being written and read: not blank, and without white space at either end. -/
def Clean (t : String) : Prop := strip t = t ∧ t ≠ ""

/-- A title as it should be: there, and clean. -/
def GoodTitle (t : Option String) : Prop := ∃ x, t = some x ∧ Clean x

/-- Metadata as they are made by the constructors: names and values are there and clean, no name twice. -/
structure GoodMeta (m : Meta) : Prop where
  clean : ∀ kv ∈ m, (∃ k, kv.1 = some k ∧ Clean k) ∧ ∃ v, kv.2 = some v ∧ Clean v
  nodup : (m.map Prod.fst).Nodup

/-- Metadata with the same value under every name. -/
def SameMeta (a b : Meta) : Prop := ∀ k, Dict.get? a k = Dict.get? b k

/-- Two features with the same content: kind of feature, name, and what there is besides in their class; with the metadata if `md`. -/
def SameFeature (md : Bool) (f g : Feat) : Prop :=
  f.cls = g.cls ∧ f.title = g.title ∧ (f.cls ∈ [FC.genetic, .tectonic, .fluid, .organization] → f.kind = g.kind) ∧
    (f.cls = .genetic → f.age = g.age) ∧ (md = true → SameMeta f.md g.md)

/-- A feature which has only the attributes of its class, and clean texts in them. -/
structure GoodFeature (f : Feat) : Prop where
  title : GoodTitle f.title
  md : GoodMeta f.md
  kind : f.cls ∉ [FC.genetic, .tectonic, .fluid, .organization] → f.kind = none
  age : f.cls ≠ .genetic → f.age = none
  date : ∀ d y, f.age = some (d, y) → ∃ t, d = some t ∧ Clean t
  units : f.cls ≠ .stratUnit → f.bottom = none ∧ f.top = none

/-- The pair of chronostratigraphic units as loaded again: as texts, and only if both are there. -/
def reloaded : Hod → Hod
  | (some a, some b) => (some (.text a.num), some (.text b.num))
  | _ => (none, none)

/-- Two features which may be missing: neither is there, or both are, of one class, and they are the same part or have the same
content. -/
def Alike (md : Bool) : Option Feat → Option Feat → Prop
  | some f, some g => f.cls = g.cls ∧ (f.uuid = g.uuid ∨ SameFeature md f g)
  | none, none => True
  | _, _ => False

/-- Both uuids belong to parts with the same title, or neither to a part. -/
def BothOrNeither (s : Store) (u v : Nat) : Prop :=
  (∃ a b, rootFor s u = some a ∧ rootFor s v = some b ∧ citationTitle a = citationTitle b) ∨ (rootFor s u = none ∧ rootFor s v = none)

/-- Metadata of which no name is there twice, in an object and in its feature. -/
def DistinctNames (md : Meta) (f : Option Feat) : Prop := (md.map Prod.fst).Nodup ∧ ∀ g, f = some g → (g.md.map Prod.fst).Nodup

/-- A list as loaded again: an empty one is missing. -/
def nonEmpty {α : Type} : Option (List α) → Option (List α)
  | some (x :: l) => some (x :: l)
  | _ => none

/-- The throws of a fault as loaded again: in the same order, each with its pair of units. -/
def reloadedThrows (t : Option (List (String × Hod))) : Option (List (String × Hod)) :=
  nonEmpty (t.map fun l => l.map fun x => (x.1, reloaded x.2))

end Verif.Organize
