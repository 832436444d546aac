import Verif.Xml.Model

/-!
# Model of the catalogue of a `Model`: parts, lookups and relationships

`resqpy/model/_forestry.py` (adding and removing parts), `resqpy/model/_xml.py` (reciprocal
relationships, change of supporting representation), `resqpy/model/_catalogue.py` (lookups).

An operation is a function from the state to a new state together with a result: when Python raises,
the state keeps whatever had been changed before the exception.  Simplifications:
* xml trees are reduced to the uuids of the objects they refer to (references to external parts, which
  the code skips, are left out); a uuid is its 128 bit integer; every part has a uuid
* documents properties parts (`docProps`) and their forest are not modelled
* Python sets are lists without repetition; where the code iterates over a set the order is that of the
  list (the order only matters for what has been done before an exception)
-/

namespace Verif.Catalogue
open Verif.Py Verif.Xml

/-- what the catalogue holds about a part: (content_type, uuid, xml_tree) of `parts_forest`; for `Cat` (_model.py:155-175) -/
structure Info where
  ctype : List Char
  uuid : Nat
  /-- uuid in the SupportingRepresentation reference of the xml, if there is one -/
  support : Option Nat
  /-- uuids in the other object references of the xml -/
  refs : List Nat
deriving DecidableEq

/-- value of `uuid_rels_dict`: (refers to, referred to by, soft); for `delRels` (_forestry.py:498-511) -/
structure Rels where
  out : List Nat
  inn : List Nat
  soft : List Nat
deriving DecidableEq

/-- for `Cat` (_model.py:155-175) -/
abbrev RelsDict := Dict Nat Rels

/-- the catalogue attributes of a `Model`, model/_model.py:155-175 -/
structure Cat where
  relsPresent : Bool
  parts : Dict (List Char) Info
  objects : Dict (List Char) Unit
  byUuid : Dict Nat (List Char)
  rels : RelsDict
  /-- `rels_forest`: uuid and Target attributes of the relationship nodes -/
  relsForest : Dict (List Char) (Nat × List (List Char))
  /-- PartName attributes of the Override nodes of the main tree -/
  overrides : List (List Char)
deriving DecidableEq

/-- a new model without parts, model/_model.py:155-175 -/
def Cat.empty (relsPresent : Bool) : Cat := ⟨relsPresent, [], [], [], [], [], []⟩

/-- sequencing of operations; for `removeRelsPart` (_forestry.py:474-489) -/
def andThen {α β : Type} (x : Cat × Res α) (f : α → Cat → Cat × Res β) : Cat × Res β :=
  match x with
  | (s, .ok a) => f a s
  | (s, .error e) => (s, .error e)

/-- Python `p in s` for strings; for `addRelations` (_forestry.py:223-246) -/
def hasSub (p : List Char) : List Char → Bool
  | [] => p.isPrefixOf []
  | c :: cs => p.isPrefixOf (c :: cs) || hasSub p cs

/-- for `addRelations` (_forestry.py:223-246) -/
def epcExternalPart : List Char :=
  ['E', 'p', 'c', 'E', 'x', 't', 'e', 'r', 'n', 'a', 'l', 'P', 'a', 'r', 't']

/-- `set.add`; for `addRef` (_forestry.py:233-246) -/
def sAdd (x : Nat) (s : List Nat) : List Nat := if x ∈ s then s else s ++ [x]

/-- `set.remove`; for `unlinkIn` (_forestry.py:503-504) -/
def sRemove (x : Nat) (s : List Nat) : Res (List Nat) :=
  if x ∈ s then .ok (s.filter (· ≠ x)) else .error .key

/-- _catalogue.py:330-334 `_obj_part` gives not `None` -/
def isObjPart (part : List Char) : Bool :=
  let free := match rfind '/' part with
    | none => part
    | some d => part.drop (d + 1)
  free.take 4 == ['o', 'b', 'j', '_'] && free.take 7 != ['o', 'b', 'j', '_', 'E', 'p', 'c']

/-- _forestry.py:22-24 `_add_to_object_parts` -/
def addToObjects (s : Cat) (part : List Char) : Cat :=
  if isObjPart part then { s with objects := s.objects.set part () } else s

/-- _forestry.py:233-246: one reference from `u` to `r` -/
def addRef (u r : Nat) (d : RelsDict) : RelsDict :=
  let d := match d.get? u with
    | none => d.set u ⟨[r], [], []⟩
    | some v => d.set u { v with out := sAdd r v.out }
  match d.get? r with
  | none => d.set r ⟨[], [u], []⟩
  | some v => d.set r { v with inn := sAdd u v.inn }

/-- the references in the xml of a part, _forestry.py:227-230 -/
def Info.allRefs (i : Info) : List Nat := i.support.toList ++ i.refs

/-- _forestry.py:223-246 `_add_uuid_relations` -/
def addRelations (u : Nat) (part : List Char) (refs : List Nat) (d : RelsDict) : RelsDict :=
  if hasSub epcExternalPart part then d else refs.foldl (fun d r => addRef u r d) d

/-- the upper case letters (`str.isupper` on the first character, for ascii); for `addPart` (_forestry.py:408-456) -/
def isUpperAscii (c : Char) : Bool := 65 ≤ c.toNat && c.toNat ≤ 90

/-- _forestry.py:408-456 `_add_part`, for a content type other than `docProps`, `add_to_rels_dict` True -/
def addPart (ctype : List Char) (u : Nat) (support : Option Nat) (refs : List Nat) (addRels : Bool)
    (subdir : List Char) (s : Cat) : Cat × Res Unit :=
  match ctype with
  | [] => (s, .error .index)
  | c :: _ =>
    let ctype := if isUpperAscii c then objPrefix ++ ctype else ctype
    match partNameForObject ctype u false subdir with
    | .error e => (s, .error e)
    | .ok part =>
      let i : Info := ⟨ctype, u, support, refs⟩
      let s := { s with parts := s.parts.set part i }
      let s := addToObjects s part
      let s := { s with byUuid := s.byUuid.set u part, overrides := s.overrides ++ [part] }
      let s := if addRels && s.relsPresent then
          match relsPartName part with
          | some q => { s with relsForest := s.relsForest.set q (u, []) }
          | none => s
        else s
      ({ s with rels := addRelations u part i.allRefs s.rels }, .ok ())

/-- _forestry.py:788-795 `_del_uuid_to_part`: exceptions within the try are swallowed; the one of
`uuid_in_part_name` is not -/
def delUuidToPart (part : List Char) (s : Cat) : Cat × Res Unit :=
  match uuidInPartName part with
  | .error e => (s, .error e)
  | .ok none => (s, .ok ())
  | .ok (some u) => ({ s with byUuid := s.byUuid.erase u }, .ok ())

/-- _forestry.py:503-504: for each of the parts referred to, forget that `u` refers to it -/
def unlinkIn (u : Nat) : List Nat → RelsDict → RelsDict × Res Unit
  | [], d => (d, .ok ())
  | v :: vs, d => match d.get? v with
    | none => (d, .error .key)
    | some r => match sRemove u r.inn with
      | .error e => (d, .error e)
      | .ok l => unlinkIn u vs (d.set v { r with inn := l })

/-- _forestry.py:505-506: for each of the parts that refer to `u`, forget that they do -/
def unlinkOut (u : Nat) : List Nat → RelsDict → RelsDict × Res Unit
  | [], d => (d, .ok ())
  | v :: vs, d => match d.get? v with
    | none => (d, .error .key)
    | some r => match sRemove u r.out with
      | .error e => (d, .error e)
      | .ok l => unlinkOut u vs (d.set v { r with out := l })

/-- _forestry.py:507-510: soft relations; removing `u` from the set being iterated over raises
RuntimeError on the next step -/
def unlinkSoft (u : Nat) : List Nat → RelsDict → RelsDict × Res Unit
  | [], d => (d, .ok ())
  | v :: vs, d => match d.get? v with
    | none => unlinkSoft u vs d
    | some r => match sRemove u r.soft with
      | .error e => (d, .error e)
      | .ok l => if v = u then (d.set v { r with soft := l }, .error .custom)
        else unlinkSoft u vs (d.set v { r with soft := l })

/-- _forestry.py:498-511 `_del_uuid_relations` on the relations dictionary; `relations` is the live
entry of the dictionary, so the second and third loops see the changes of the earlier ones -/
def delRels (u : Nat) (d : RelsDict) : RelsDict × Res Unit :=
  match d.get? u with
  | none => (d, .error .key)
  | some r =>
    match unlinkIn u r.out d with
    | (d, .error e) => (d, .error e)
    | (d, .ok _) =>
      match unlinkOut u ((d.get? u).elim [] Rels.inn) d with
      | (d, .error e) => (d, .error e)
      | (d, .ok _) =>
        match unlinkSoft u ((d.get? u).elim [] Rels.soft) d with
        | (d, .error e) => (d, .error e)
        | (d, .ok _) => (d.erase u, .ok ())

/-- _forestry.py:498-511 `_del_uuid_relations` -/
def delUuidRelations (part : List Char) (s : Cat) : Cat × Res Unit :=
  match s.parts.get? part with
  | none => (s, .error .key)
  | some i =>
    match delRels i.uuid s.rels with
    | (d, r) => ({ s with rels := d }, r)

/-- _catalogue.py:393-413 `_parts_list_filtered_by_related_uuid` for all modes and a uuid that is not
`None`; `none` for `None` -/
def filteredByRelated (s : Cat) (ps : List (List Char)) (u : Nat) : Res (Option (List (List Char))) :=
  if s.relsPresent then
    match s.rels.get? u with
    | none => .ok (some [])
    | some r =>
      let rec go : List (List Char) → Res (List (List Char))
        | [] => .ok []
        | p :: ps => match s.parts.get? p with
          | none => .error .key
          | some i => match go ps with
            | .error e => .error e
            | .ok l => .ok (if i.uuid ∈ r.out ++ r.inn ++ r.soft then p :: l else l)
      match go ps with
      | .error e => .error e
      | .ok l => .ok (some l)
  else .ok none

/-- _forestry.py:480-487: removes from the relationship parts of the relatives the nodes that have the
part as target (lxml has stored the next child before the body of the loop runs, so removal of the
current child is safe) -/
def removeFromRelatives (part : List Char) : List (List Char) → Cat → Cat × Res Unit
  | [], s => (s, .ok ())
  | p :: ps, s => match relsPartName p with
    | none => (s, .error .key)
    | some q => match s.relsForest.get? q with
      | none => (s, .error .key)
      | some (v, ts) =>
        removeFromRelatives part ps { s with relsForest := s.relsForest.set q (v, ts.filter (· ≠ part)) }

/-- _forestry.py:474-489 -/
def removeRelsPart (part : List Char) (s : Cat) : Cat × Res Unit :=
  match uuidInPartName part with
  | .error e => (s, .error e)
  | .ok none => (s, .error .type)  -- `for relative in None`
  | .ok (some u) =>
    match filteredByRelated s s.objects.keys u with
    | .error e => (s, .error e)
    | .ok none => (s, .error .type)
    | .ok (some related) =>
      andThen (removeFromRelatives part related s) fun _ s =>
        match relsPartName part with
        | none => (s, .error .key)
        | some q => match s.relsForest.get? q with
          | none => (s, .error .key)
          | some _ => ({ s with relsForest := s.relsForest.erase q }, .ok ())

/-- _forestry.py:110-111: a name without its leading slash -/
def unslashed (o : List Char) : List Char :=
  match o with
  | '/' :: rest => rest
  | _ => o

/-- _forestry.py:105-116 `_remove_part_from_main_tree`: the first Override node with the name; a leading
slash of the node is disregarded -/
def removeOverride (part : List Char) : List (List Char) → List (List Char)
  | [] => []
  | o :: os => if unslashed o = part then os else o :: removeOverride part os

/-- _forestry.py:471-495 `_remove_part`, for names that do not contain `docProps` -/
def removePart (part : List Char) (removeRels : Bool) (s : Cat) : Cat × Res Unit :=
  andThen (if removeRels then removeRelsPart part s else (s, .ok ())) fun _ s =>
  andThen (delUuidToPart part s) fun _ s =>
  andThen (delUuidRelations part s) fun _ s =>
    match s.parts.get? part with
    | none => (s, .error .key)
    | some _ =>
      let s := { s with parts := s.parts.erase part }
      match s.objects.get? part with
      | none => (s, .error .key)
      | some _ =>
        ({ s with objects := s.objects.erase part, overrides := removeOverride part s.overrides }, .ok ())

/-- one side of a soft relationship, _xml.py:632-634 and 636-638 -/
def addSoft (a b : Nat) (d : RelsDict) : RelsDict :=
  match d.get? a with
  | none => d
  | some v => if b ∉ v.out ∧ b ∉ v.inn then d.set a { v with soft := sAdd b v.soft } else d

/-- adds a target to the relationship part, _xml.py:594-606 and 608-621, `avoid_duplicates` True -/
def addTarget (q target : List Char) (s : Cat) : Cat :=
  match s.relsForest.get? q with
  | none => s
  | some (v, ts) => if target ∈ ts then s else { s with relsForest := s.relsForest.set q (v, ts ++ [target]) }

/-- _xml.py:566-638 `_create_reciprocal_relationship` between the objects with the given types and uuids
(neither node `None`) -/
def relate (ta : List Char) (ua : Nat) (tb : List Char) (ub : Nat) (s : Cat) : Cat × Res Unit :=
  if s.relsPresent then
    match partNameForObject ta ua false [], partNameForObject tb ub false [] with
    | .ok pa, .ok pb =>
      match relsPartName pa with
      | none => (s, .error .key)
      | some qa => match s.relsForest.get? qa with
        | none => (s, .error .key)
        | some (va, _) => match relsPartName pb with
          | none => (s, .error .key)
          | some qb => match s.relsForest.get? qb with
            | none => (s, .error .key)
            | some (vb, _) =>
              let s := addTarget qa pb s
              let s := addTarget qb pa s
              if hasSub epcExternalPart qa || hasSub epcExternalPart qb then (s, .ok ())
              else ({ s with rels := addSoft vb va (addSoft va vb s.rels) }, .ok ())
    | .error e, _ => (s, .error e)
    | _, .error e => (s, .error e)
  else (s, .error .assertion)

/-- the relations part of `_change_uuid_in_supporting_representation_reference`, _xml.py:49-60 -/
def changeSupportRels (u old new : Nat) (d : RelsDict) : RelsDict × Res Unit :=
  match d.get? u with
  | none => (d, .error .key)
  | some r =>
    let d := d.set u { r with out := sAdd new (r.out.filter (· ≠ old)) }
    match d.get? old with
    | none => (d, .error .key)
    | some r =>
      let d := d.set old { r with inn := r.inn.filter (· ≠ u) }
      match d.get? new with
      | none => (d, .error .key)
      | some r => (d.set new { r with inn := sAdd u r.inn }, .ok ())

/-- _xml.py:33-67 `_change_uuid_in_supporting_representation_reference` on the node of a part of the
model -/
def changeSupport (part : List Char) (old new : Nat) (s : Cat) : Cat × Res Bool :=
  match s.parts.get? part with
  | none => (s, .ok false)
  | some i =>
    if i.support = some old then
      match changeSupportRels i.uuid old new s.rels with
      | (d, .error e) => ({ s with rels := d }, .error e)
      | (d, .ok _) =>
        ({ s with rels := d, parts := s.parts.set part { i with support := some new } }, .ok true)
    else (s, .ok false)

/-- the operations of a history (calls made by the user: models no lines of its own) -/
inductive Op where
  | add (ctype : List Char) (uuid : Nat) (support : Option Nat) (refs : List Nat) (addRels : Bool)
      (subdir : List Char)
  | remove (part : List Char) (removeRels : Bool)
  | relate (ta : List Char) (ua : Nat) (tb : List Char) (ub : Nat)
  | changeSupport (part : List Char) (old new : Nat)

/-- one call of a history (models no lines of its own) -/
def step (s : Cat) : Op → Cat × Res Unit
  | .add c u sp r a d => addPart c u sp r a d s
  | .remove p r => removePart p r s
  | .relate ta ua tb ub => relate ta ua tb ub s
  | .changeSupport p o n => match changeSupport p o n s with
    | (s, .ok _) => (s, .ok ())
    | (s, .error e) => (s, .error e)

/-- a history: exceptions are caught by the caller, who carries on (models no lines of its own) -/
def run (s : Cat) (ops : List Op) : Cat := ops.foldl (fun s o => (step s o).1) s

/-- `Model.part_for_uuid`, _catalogue.py:350-353 -/
def partForUuid (s : Cat) (u : Nat) : Option (List Char) := s.byUuid.get? u

/-- `Model.uuid_for_part`, _catalogue.py:459-468, `none` for KeyError -/
def uuidForPart (s : Cat) (p : List Char) : Option Nat := (s.parts.get? p).map Info.uuid

/-- `Model.list_of_parts`, _catalogue.py:337-341 -/
def listOfParts (s : Cat) (onlyObjects : Bool) : List (List Char) :=
  if onlyObjects then s.objects.keys else s.parts.keys

/-- `Model.uuids_as_int_referenced_by_uuid` etc., _catalogue.py:821-858 -/
def outs (s : Cat) (u : Nat) : List Nat := (s.rels.get? u).elim [] Rels.out
/-- as `outs`, _catalogue.py:821-858 -/
def ins (s : Cat) (u : Nat) : List Nat := (s.rels.get? u).elim [] Rels.inn
/-- as `outs`, _catalogue.py:821-858 -/
def softs (s : Cat) (u : Nat) : List Nat := (s.rels.get? u).elim [] Rels.soft

end Verif.Catalogue
