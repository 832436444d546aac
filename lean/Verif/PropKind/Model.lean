import Verif.Py.Basic

/-! # Model of bespoke property kinds

Source: resqpy/property/property_kind.py, resqpy/olio/base.py.  A unit, if given, is not blank; a title is given. -/

namespace Verif.PropKind
open Verif.Py

/-- A PropertyKind object, for `create` (property_kind.py:20-40) -/
structure Kind where
  uuid : Nat
  title : String
  parent : String
  abstract : Bool
  naming : String
  uom : Option String
  extra : List (String × String)
deriving DecidableEq

/-- property_kind.py:53-70 is_equivalent, for two objects which are there; metadata which are missing are empty. -/
def equivalent (a b : Kind) : Bool :=
  if a.uuid = b.uuid then true
  else if a.parent ≠ b.parent ∨ a.title ≠ b.title ∨ a.abstract ≠ b.abstract ∨ a.naming ≠ b.naming then false
  else if a.uom.isSome ∧ b.uom.isSome ∧ a.uom ≠ b.uom then false
  else if a.extra ≠ b.extra then false
  else true

/-- property_kind.py:78-106 create_xml: what is stored in the model, and read again (property_kind.py:42-51) -/
def stored (k : Kind) : Kind := { k with uom := some (k.uom.getD "Euc") }

/-- olio/base.py:107-120 try_reuse: the loop over property kinds of the model; the uuid which the object has then -/
def tryReuse (k : Kind) : List Kind → Option Nat
  | [] => none
  | o :: os => if k.uuid = o.uuid then some k.uuid else if equivalent k o then some o.uuid else tryReuse k os

/-- property_kind.py:72-108 create_xml with reuse, olio/base.py:103-105: the uuid of the object afterwards, and the property kinds of the model -/
def create (s : List Kind) (k : Kind) : Nat × List Kind :=
  if s.any (fun o => o.uuid = k.uuid) then (k.uuid, s)
  else
    match tryReuse k s with
    | some u => (u, s)
    | none => (k.uuid, s ++ [stored k])

/-- property_kind.py:130-139 establish_zone_property_kind.  It looks for parts of type LocalPropertyKind, while property kinds have type PropertyKind
(property_kind.py:105), so none is found; `u` is the uuid of a new object. -/
def establishZone (s : List Kind) (u : Nat) : Nat × List Kind := create s ⟨u, "zone", "discrete", false, "urn:resqml:bp.com:resqpy", none, []⟩

/-- The property kinds of a model after objects have been created and stored, for property_kind.py:72-108 -/
def run (s : List Kind) (ks : List Kind) : List Kind := ks.foldl (fun s k => (create s k).2) s

end Verif.PropKind
