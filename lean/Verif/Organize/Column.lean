import Verif.Organize.Model

/-!
# Stratigraphic columns

Model of `resqpy/strata/_binary_contact_interpretation.py`, `_stratigraphic_column_rank.py` and `_stratigraphic_column.py`, on top of the
model of units.  `lu` are the units of length, as for units.
-/

namespace Verif.Organize

open Verif.Py

/-- A binary contact interpretation.; for `mkContact` (_binary_contact_interpretation.py:53-75) -/
structure Contact where
  index : Int
  relationship : String
  verb : String
  subject : Nat
  object : Nat
  subjectSide : Option String
  subjectMode : Option String
  objectSide : Option String
  objectMode : Option String
  partOf : Option Nat
deriving DecidableEq

/-- resqpy/strata/_strata_common.py:20-26 valid_contact_relationships -/
def validRelationships : List String :=
  ["frontier feature to frontier feature", "genetic boundary to frontier feature", "genetic boundary to genetic boundary",
   "genetic boundary to tectonic boundary", "stratigraphic unit to frontier feature", "stratigraphic unit to stratigraphic unit",
   "tectonic boundary to frontier feature", "tectonic boundary to genetic boundary", "tectonic boundary to tectonic boundary"]

/-- resqpy/strata/_strata_common.py:28 valid_contact_verbs -/
def validVerbs : List String := ["splits", "interrupts", "contains", "erodes", "stops at", "crosses", "includes"]

/-- resqpy/strata/_strata_common.py:30 valid_contact_sides -/
def validSides : List String := ["footwall", "hanging wall", "north", "south", "east", "west", "younger", "older", "both"]

/-- resqpy/strata/_strata_common.py:32 valid_contact_modes -/
def validModes : List String := ["baselap", "erosion", "extended", "proportional"]

/-- `if x is not None: assert x in …`; for `mkContact` (_binary_contact_interpretation.py:53-75) -/
def listed (l : List String) (t : Option String) : Bool := !t.any fun x => x ∉ l

/-- resqpy/strata/_binary_contact_interpretation.py:53-75 __init__ (subject and direct object are there) -/
def mkContact (c : Contact) : Res Contact :=
  if 0 ≤ c.index ∧ c.relationship ∈ validRelationships ∧ c.verb ∈ validVerbs ∧ listed validSides c.subjectSide ∧
      listed validModes c.subjectMode ∧ listed validSides c.objectSide ∧ listed validModes c.objectMode then .ok c
  else .error .assertion

/-- resqpy/strata/_binary_contact_interpretation.py:163-178 create_xml: a reference with its qualifiers. -/
def contactRef (tag : String) (u : Nat) (side mode : Option String) : Node :=
  .mk tag none none (leaf "UUID" (.uuid u) :: (truthyLeaf "Qualifier" side ++ truthyLeaf "SecondaryQualifier" mode))

/-- resqpy/strata/_binary_contact_interpretation.py:113-183 create_xml -/
def contactNode (c : Contact) : Node :=
  .mk "ContactInterpretation" none none
    ([leaf "ContactRelationship" (.str c.relationship), leaf "Index" (.int c.index)] ++ optRef "PartOf" c.partOf ++
      [contactRef "DirectObject" c.object c.objectSide c.objectMode, leaf "Verb" (.str c.verb),
       contactRef "Subject" c.subject c.subjectSide c.subjectMode])

/-- resqpy/strata/_binary_contact_interpretation.py:77-111 _load_from_xml -/
def loadContact (n : Node) : Res Contact :=
  match findText n "ContactRelationship", findInt n "Index", findTag n "Subject", findTag n "DirectObject", findText n "Verb" with
  | some r, some i, some s, some d, some v =>
    match (findTag s "UUID").bind nodeUuid, (findTag d "UUID").bind nodeUuid with
    | some su, some du =>
      if r ∈ validRelationships ∧ v ∈ validVerbs then
        .ok ⟨i, r, v, su, du, findText s "Qualifier", findText s "SecondaryQualifier", findText d "Qualifier",
          findText d "SecondaryQualifier", refUuid n "PartOf"⟩
      else .error .assertion
    | _, _ => .error .assertion
  | _, _, _, _, _ => .error .assertion

/-- A rank of a stratigraphic column.; for `setContacts` (_stratigraphic_column_rank.py:116-152) -/
structure Rank where
  uuid : Nat
  title : Option String
  md : Meta
  featureUuid : Option Nat
  domain : Option String
  hod : Hod
  index : Option Int
  units : List (Int × StratUnit)
  contacts : List Contact
deriving DecidableEq

/-- One unit by its uuid: resqpy/strata/_stratigraphic_column_rank.py:105-106 set_units -/
def unitOf (lu : String → Bool) (s : Store) (u : Nat) : Res StratUnit :=
  if typeOf s u = some "StratigraphicUnitInterpretation" then loadStrat lu s u else .error .assertion

/-- resqpy/strata/_stratigraphic_column_rank.py:103-106 set_units, from index `i` on -/
def setUnitsFrom (lu : String → Bool) (s : Store) (i : Nat) : List Nat → Res (List (Int × StratUnit))
  | [] => .ok []
  | u :: us =>
    match unitOf lu s u with
    | .error e => .error e
    | .ok x =>
      match setUnitsFrom lu s (i + 1) us with
      | .error e => .error e
      | .ok xs => .ok (((i : Int), x) :: xs)

/-- resqpy/strata/_stratigraphic_column_rank.py:95-106 set_units -/
def setUnits (lu : String → Bool) (s : Store) (us : List Nat) : Res (List (Int × StratUnit)) := setUnitsFrom lu s 0 us

/-- The order of units in a rank: resqpy/strata/_stratigraphic_column_rank.py:110 _sort_units -/
def unitLe (a b : Int × StratUnit) : Bool := a.1 ≤ b.1

/-- resqpy/strata/_stratigraphic_column_rank.py:108-110 _sort_units.  Pairs are compared by index first; units with the same index have
no order, so that the sort fails unless they are equivalent.  Simplification: it fails if any two with the same index are not. -/
def sortUnits (s : Store) (l : List (Int × StratUnit)) : Res (List (Int × StratUnit)) :=
  if l.all fun a => l.all fun b => a.1 != b.1 || eqvStrat s a.2 b.2 then .ok (l.mergeSort unitLe) else .error .type

/-- The order of contacts: resqpy/strata/_stratigraphic_column_rank.py:114 _sort_contacts -/
def contactLe (a b : Contact) : Bool := a.index ≤ b.index

/-- resqpy/strata/_stratigraphic_column_rank.py:112-114 _sort_contacts -/
def sortContacts (l : List Contact) : List Contact := l.mergeSort contactLe

/-- resqpy/strata/_stratigraphic_column_rank.py:138-152 set_contacts_from_horizons, from index `i` on -/
def contactsFrom (s : Store) (units : List (Int × StratUnit)) (older younger : Option String) (i : Nat) :
    List Nat → Res (List Contact)
  | [] => .ok []
  | h :: hs =>
    if typeOf s h = some "HorizonInterpretation" then
      match units[i]?, units[i + 1]? with
      | some a, some b =>
        match mkContact ⟨i, "stratigraphic unit to stratigraphic unit", "stops at", a.2.uuid, b.2.uuid, some "older", older,
            some "younger", younger, some h⟩ with
        | .error e => .error e
        | .ok c =>
          match contactsFrom s units older younger (i + 1) hs with
          | .error e => .error e
          | .ok cs => .ok (c :: cs)
      | _, _ => .error .index
    else .error .assertion

/-- resqpy/strata/_stratigraphic_column_rank.py:116-152 set_contacts_from_horizons -/
def setContacts (s : Store) (r : Rank) (hs : List Nat) (older younger : Option String) : Res Rank :=
  if (hs.length : Int) = (r.units.length : Int) - 1 then
    match contactsFrom s r.units older younger 0 hs with
    | .error e => .error e
    | .ok cs => .ok { r with contacts := cs }
  else .error .assertion

/-- resqpy/strata/_stratigraphic_column_rank.py:160-166 unit_for_unit_index -/
def unitForIndex (units : List (Int × StratUnit)) (i : Int) : Option StratUnit := (units.find? fun u => u.1 == i).map Prod.snd

/-- resqpy/strata/_stratigraphic_column_rank.py:229-241 create_xml: the node of a unit. -/
def rankUnitNode (u : Int × StratUnit) : Node :=
  .mk "StratigraphicUnits" none none [leaf "Index" (.int u.1), refNode "Unit" u.2.uuid]

/-- resqpy/strata/_stratigraphic_column_rank.py:84-88 _load_from_xml: a unit. -/
def loadRankUnit (lu : String → Bool) (s : Store) (n : Node) : Res (Int × StratUnit) :=
  match findInt n "Index", refUuid n "Unit" with
  | some i, some u => (unitOf lu s u).map fun x => (i, x)
  | _, _ => .error .assertion

/-- `for … in …: list.append(f(…))` where `f` may fail; for `loadRank` (_stratigraphic_column_rank.py:72-93) -/
def mapRes {α β : Type} (f : α → Res β) : List α → Res (List β)
  | [] => .ok []
  | a :: l =>
    match f a with
    | .error e => .error e
    | .ok b =>
      match mapRes f l with
      | .error e => .error e
      | .ok bs => .ok (b :: bs)

/-- resqpy/strata/_stratigraphic_column_rank.py:72-93 _load_from_xml -/
def loadRank (lu : String → Bool) (s : Store) (u : Nat) : Res Rank :=
  match rootFor s u with
  | none => .error .attribute
  | some n =>
    if findText n "OrderingCriteria" ≠ some "age" then .error .assertion
    else
      match mapRes (loadRankUnit lu s) (listOfTag n "StratigraphicUnits") with
      | .error e => .error e
      | .ok units =>
        match sortUnits s units with
        | .error e => .error e
        | .ok units =>
          match mapRes loadContact (listOfTag n "ContactInterpretation") with
          | .error e => .error e
          | .ok cs =>
            .ok ⟨u, citationTitle n, loadMeta n, refUuid n "InterpretedFeature", findText n "Domain", loadHod n, findInt n "Index",
              units, sortContacts cs⟩

/-- resqpy/strata/_stratigraphic_column_rank.py:198-260 create_xml -/
def writeRank (s : Store) (r : Rank) : Res (Store × Node × Rank) :=
  match r.featureUuid with
  | none => .error .assertion
  | some f =>
    if typeOf s f ≠ some "OrganizationFeature" then .error .assertion
    else if !domainOk r.domain then .error .assertion
    else
      .ok (s, .mk "StratigraphicColumnRankInterpretation" none none
        (baseKids r.title r.md ++ [refNode "InterpretedFeature" f] ++ optLeaf "Domain" r.domain ++ hodKids r.hod ++
          [leaf "OrderingCriteria" (.str "age"), leaf "Index" (.int (r.index.getD 0))] ++ r.units.map rankUnitNode ++
          r.contacts.map contactNode), { r with index := some (r.index.getD 0) })

/-- resqpy/strata/_stratigraphic_column_rank.py:21-260 StratigraphicColumnRank; there is no test for equivalence but that of the uuid
(resqpy/olio/base.py:186-193 __eq__). -/
def rankCls (lu : String → Bool) : Cls Rank where
  typ := "StratigraphicColumnRankInterpretation"
  uuid := Rank.uuid
  setUuid r u := { r with uuid := u }
  load := loadRank lu
  eqv _ a b := .ok (a.uuid == b.uuid)
  prep _ r := if r.units.length = 0 then .error .assertion else .ok r
  write := writeRank

/-- A stratigraphic column.; for `loadColumn` (_stratigraphic_column.py:57-63) -/
structure Column where
  uuid : Nat
  title : Option String
  md : Meta
  ranks : List Rank
deriving DecidableEq

/-- The order of ranks: resqpy/strata/_stratigraphic_column.py:85-87 _sort_ranks -/
def rankLe (a b : Rank) : Bool := a.index.getD 0 ≤ b.index.getD 0

/-- resqpy/strata/_stratigraphic_column.py:71-87 add_rank, _sort_ranks -/
def addRank (ranks : List Rank) (r : Rank) : Res (List Rank) :=
  match r.index with
  | none => .error .assertion
  | some _ => .ok ((ranks ++ [r]).mergeSort rankLe)

/-- Adding one rank after the other: resqpy/strata/_stratigraphic_column.py:53-55 __init__ -/
def addRanks (ranks : List Rank) : List Rank → Res (List Rank)
  | [] => .ok ranks
  | r :: rs =>
    match addRank ranks r with
    | .error e => .error e
    | .ok ranks => addRanks ranks rs

/-- resqpy/strata/_stratigraphic_column.py:62 _load_from_xml: the rank of a reference. -/
def rankOfRef (lu : String → Bool) (s : Store) (k : Node) : Res Rank :=
  match (findTag k "UUID").bind nodeUuid with
  | none => .error .assertion
  | some v => loadRank lu s v

/-- resqpy/strata/_stratigraphic_column.py:57-63 _load_from_xml -/
def loadColumn (lu : String → Bool) (s : Store) (u : Nat) : Res Column :=
  match rootFor s u with
  | none => .error .attribute
  | some n =>
    match mapRes (rankOfRef lu s) (listOfTag n "Ranks") with
    | .error e => .error e
    | .ok rs =>
      match addRanks [] rs with
      | .error e => .error e
      | .ok ranks => .ok ⟨u, citationTitle n, loadMeta n, ranks⟩

/-- resqpy/strata/_stratigraphic_column.py:89-112 is_equivalent -/
def eqvColumn (check : Bool) (a b : Column) : Bool :=
  if a.uuid = b.uuid then true
  else if a.ranks.length ≠ b.ranks.length then false
  else if (a.ranks.zip b.ranks).any fun p => p.1.uuid ≠ p.2.uuid then false
  else if check && !eqvMeta a.md b.md then false
  else true

/-- resqpy/strata/_stratigraphic_column.py:134-151 create_xml -/
def writeColumn (s : Store) (c : Column) : Res (Store × Node × Column) :=
  .ok (s, .mk "StratigraphicColumn" none none (baseKids c.title c.md ++ c.ranks.map fun r => refNode "Ranks" r.uuid), c)

/-- resqpy/strata/_stratigraphic_column.py:18-151 StratigraphicColumn -/
def columnCls (lu : String → Bool) : Cls Column where
  typ := "StratigraphicColumn"
  uuid := Column.uuid
  setUuid c u := { c with uuid := u }
  load := loadColumn lu
  eqv _ a b := .ok (eqvColumn true a b)
  prep _ c := if c.ranks = [] then .error .assertion else .ok c
  write := writeColumn

end Verif.Organize
