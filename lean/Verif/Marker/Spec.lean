import Verif.Marker.Model
import Verif.Organize.Spec

/-!
# Specification: wellbore markers, frames and datums
-/

namespace Verif.Marker

open Verif.Py Verif.Organize

/-- The kinds of marker and the group which each is in. -/
inductive KindIn : String → String → Prop
  | geologic {k} (h : k = "fault" ∨ k = "geobody" ∨ k = "horizon") : KindIn k "GeologicBoundaryKind"
  | marker {k} (h : k = "gas down to" ∨ k = "gas up to" ∨ k = "oil down to" ∨ k = "oil up to" ∨ k = "water down to" ∨
      k = "water up to") : KindIn k "FluidMarker"
  | contact {k} (h : k = "free water contact" ∨ k = "gas oil contact" ∨ k = "gas water contact" ∨ k = "seal" ∨
      k = "water oil contact") : KindIn k "FluidContact"

/-- A part which can be referred to: it is there, and its citation has a title. -/
def Citable (s : Store) (u : Nat) : Prop := ∃ n c t, rootFor s u = some n ∧ findTag n "Citation" = some c ∧ findTag c "Title" = some t

/-- A title which may be left out. -/
def TitleOrNone (t : Option String) : Prop := t = none ∨ t = some "" ∨ ∃ x, t = some x ∧ Clean x

/-- The title an object has after storing, `d` being the one used if it has none. -/
def titleOr (t : Option String) (d : String) : Option String :=
  match t with
  | none => some d
  | some x => if x = "" then some d else some x

/-- A marker which can be stored in the model. -/
structure GoodMark (s : Store) (m : Mark) : Prop where
  kind : ∃ k g, m.kind = some k ∧ KindIn k g
  interp : ∀ u, m.interp = some u → Citable s u
  title : TitleOrNone m.title
  md : GoodMeta m.md

/-- A marker as it was, but for its title. -/
structure Kept (m m' : Mark) : Prop where
  uuid : m'.uuid = m.uuid
  kind : m'.kind = m.kind
  interp : m'.interp = m.interp
  md : m'.md = m.md
  title : ∀ t, m.title = some t → t ≠ "" → m'.title = m.title

/-- A marker without a title of its own. -/
def Untitled (m : Mark) : Prop := m.title = none ∨ m.title = some ""

/-- The title made up for a marker: the name of the well, the group and the kind of the marker, and the title of the interpretation,
those which there are, with blanks between. -/
def composed (s : Store) (wellName : Option String) (group kind : String) (interp : Option Nat) : String :=
  " ".intercalate (wellName.toList ++ [group, kind] ++ ((interp.bind (rootFor s)).bind rawTitle).toList)

/-- The uuids of the parts of a type which have a title, letter case apart, in the order of the model. -/
def titled (s : Store) (typ t : String) : List Nat :=
  (s.filter fun p => decide (p.typ = typ) && decide (upper (strip ((citationTitle p.root).getD "")) = upper (strip t))).map Part.uuid

/-- The types of interpretation for kinds of markers. -/
inductive InterpOf : String → String → Prop
  | horizon : InterpOf "horizon" "HorizonInterpretation"
  | fault : InterpOf "fault" "FaultInterpretation"
  | geobody : InterpOf "geobody" "GeobodyInterpretation"

end Verif.Marker
