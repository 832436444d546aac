import Verif.Py.Basic
import Verif.Py.Text

/-! # Model of property sets with attribute syntax

Source: resqpy/property/attribute_property_set.py.  Text is a list of characters. -/

namespace Verif.Aps
open Verif.Py

/-- for `Part` (attribute_property_set.py:257-266) -/
abbrev Text := List Char

/-- Metadata of a property which go into its key, with its part name; for `keyOf` (attribute_property_set.py:257-266) -/
structure Part where
  part : Nat
  kind : Text
  title : Text
  facet : Option Text
  timeIndex : Option Int
  realization : Option Int
  indexable : Option Text
deriving DecidableEq

/-- key_mode and multiple_handling; for `keyOf` and `attributeStep` (attribute_property_set.py:227, 234) -/
inductive KeyMode where
  | pk | title
/-- for `attributeStep` (attribute_property_set.py:271-280) -/
inductive Handling where
  | ignore | warn | exception

/-- `replace(' ', '_')`; for `makeKey` (attribute_property_set.py:306) -/
def underscored (t : Text) : Text := t.map fun c => if c = ' ' then '_' else c

/-- attribute_property_set.py:307-310: a number at the end of a key -/
def suffix (c : Char) : Option Int → Text
  | some t => '_' :: c :: showInt t
  | none => []

/-- attribute_property_set.py:287-311 make_aps_key; property kind and title are present. -/
def makeKey (mode : KeyMode) (indexableMode : Option Text) (p : Part) : Text :=
  let key :=
    match mode with
    | .pk => p.kind ++ (if indexableMode.isSome ∧ p.indexable.isSome ∧ p.indexable ≠ indexableMode then '_' :: p.indexable.getD [] else []) ++
        (match p.facet with | some f => '_' :: f | none => [])
    | .title => p.title
  underscored key ++ suffix 't' p.timeIndex ++ suffix 'r' p.realization

/-- What an attribute holds: None (or there is no such attribute), something of the collection itself, or a property; for `attributeStep` (attribute_property_set.py:272, 280) -/
inductive Value where
  | none
  | own
  | property (p : Part)
deriving DecidableEq

/-- attribute_property_set.py:271-280 _make_attributes: one part; a KeyError is an error value. -/
def attributeStep (mode : KeyMode) (ix : Option Text) (h : Handling) (attrs : Text → Value) (p : Part) : Res (Text → Value) :=
  let key := makeKey mode ix p
  if attrs key ≠ .none then
    match h with
    | .warn => .ok attrs
    | .ignore => .ok attrs
    | .exception => .error .key
  else .ok fun k => if k = key then .property p else attrs k

/-- attribute_property_set.py:268-280 _make_attributes: over all parts of the collection, which has attributes of its own -/
def makeAttributes (mode : KeyMode) (ix : Option Text) (h : Handling) (attrs : Text → Value) : List Part → Res (Text → Value)
  | [] => .ok attrs
  | p :: ps =>
    match attributeStep mode ix h attrs p with
    | .error e => .error e
    | .ok a => makeAttributes mode ix h a ps

/-- attribute_property_set.py:242-245 keys -/
def keys (mode : KeyMode) (ix : Option Text) (parts : List Part) : List Text := parts.map (makeKey mode ix)

/-- attribute_property_set.py:252-255 items -/
def items (mode : KeyMode) (ix : Option Text) (attrs : Text → Value) (parts : List Part) : List (Text × Value) := (keys mode ix parts).map fun k => (k, attrs k)

/-- attribute_property_set.py:282-284 __len__ -/
def size (parts : List Part) : Nat := parts.length

end Verif.Aps
