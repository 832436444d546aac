import Verif.Catalogue.Model

/-!
# Model of the parts queries, `resqpy/model/_catalogue.py`

`_parts`, `_part`, the filters they apply and the sorting of the result.  Simplifications: the xml of a
part is reduced to what the filters read; changing to upper case and stripping are modelled for ascii.
-/

namespace Verif.Query
open Verif.Py Verif.Catalogue

/-- for `titleOf` (_catalogue.py:547-553) -/
abbrev Name := List Char

/-- what the filters read about a part; for `titleOf` (_catalogue.py:547-553) -/
structure Info where
  ctype : List Char
  uuid : Nat
  /-- citation title, empty when missing -/
  title : List Char
  /-- creation date and time in the citation -/
  created : List Char
  /-- text of the first child with a given tag -/
  tag : List Char → Option (List Char)
  /-- extra metadata -/
  extra : Dict (List Char) (List Char)

/-- the part of a `Model` that queries read; for `titleOf` (_catalogue.py:547-553) -/
structure Db where
  /-- `list_of_parts` -/
  objects : List Name
  info : Name → Option Info
  byUuid : Nat → Option Name
  relsPresent : Bool
  rels : Nat → Option Rels

/-- for `titleTest` (_catalogue.py:739-764) -/
inductive TitleMode where
  | is | starts | ends | contains | isNot | notStart | notEnd | notContain | invalid
deriving DecidableEq

/-- for `sortedParts` (_catalogue.py:799-819) -/
inductive SortBy where
  | type | newest | oldest | uuid | title | invalid
deriving DecidableEq

/-- arguments of `Model.parts`; for `stageRest` (_catalogue.py:47-54) -/
structure Query where
  start : Option (List Name) := none
  objType : List Char := []
  uuid : Option Nat := none
  title : List Char := []
  mode : TitleMode := .is
  caseSensitive : Bool := false
  metadata : List (List Char × List Char) := []
  extra : List (List Char × List Char) := []
  related : Option Nat := none
  /-- 0 for parts referred to, 1 for parts referring, 2 for soft -/
  relMode : Option Nat := none
  subdir : List Char := []
  sortBy : Option SortBy := none

/-- a loop that appends the parts for which the test holds; for `filteredByRelated` (_catalogue.py:393-413) -/
def filterRes (t : Name → Res Bool) : List Name → Res (List Name)
  | [] => .ok []
  | p :: ps => match t p with
    | .error e => .error e
    | .ok b => match filterRes t ps with
      | .error e => .error e
      | .ok l => .ok (if b then p :: l else l)

/-- `str.strip`; for `filteredByTitle` (_catalogue.py:729-765) -/
def strip (s : List Char) : List Char :=
  ((s.dropWhile isWS).reverse.dropWhile isWS).reverse

/-- `str.upper`; for `filteredByTitle` (_catalogue.py:729-765) -/
def upper (s : List Char) : List Char := s.map Char.toUpper

/-- the title of a part, _catalogue.py:547-553 -/
def titleOf (db : Db) (p : Name) : List Char := (db.info p).elim [] Info.title

/-- the test of _catalogue.py:739-764 -/
def titleTest (mode : TitleMode) (partTitle title : List Char) : Bool :=
  match mode with
  | .is => partTitle = title
  | .starts => startsWith title partTitle
  | .ends => endsWith title partTitle
  | .contains => hasSub title partTitle
  | .isNot => partTitle ≠ title
  | .notStart => !startsWith title partTitle
  | .notEnd => !endsWith title partTitle
  | .notContain => !hasSub title partTitle
  | .invalid => false

/-- _catalogue.py:729-765 `_filtered_by_title` -/
def filteredByTitle (db : Db) (ps : List Name) (title : List Char) (mode : TitleMode) (cs : Bool) :
    Res (List Name) :=
  if mode = .invalid then .error .assertion
  else
    let title := strip title
    let title := if cs then title else upper title
    .ok (ps.filter fun p =>
      let pt := strip (titleOf db p)
      let pt := if cs then pt else upper pt
      titleTest mode pt title)

/-- _catalogue.py:772-777: all keys and values match -/
def metadataMatch (tag : List Char → Option (List Char)) : List (List Char × List Char) → Bool
  | [] => true
  | (k, v) :: rest => match tag k with
    | none => false
    | some t => if t ≠ v then false else metadataMatch tag rest

/-- _catalogue.py:768-780 `_filtered_by_metadata` -/
def filteredByMetadata (db : Db) (ps : List Name) (md : List (List Char × List Char)) : List Name :=
  ps.filter fun p => metadataMatch (match db.info p with | none => fun _ => none | some i => i.tag) md

/-- _catalogue.py:789-793 -/
def extraMatch (ex : Dict (List Char) (List Char)) : List (List Char × List Char) → Bool
  | [] => true
  | (k, v) :: rest => match ex.get? k with
    | none => false
    | some t => if t ≠ v then false else extraMatch ex rest

/-- _catalogue.py:783-796 `_filtered_by_extra` -/
def filteredByExtra (db : Db) (ps : List Name) (ex : List (List Char × List Char)) : List Name :=
  ps.filter fun p => match db.info p with
    | none => false
    | some i => if i.extra = [] then false else extraMatch i.extra ex

/-- _catalogue.py:402-405; an index other than 0, 1, 2 raises -/
def relSet (r : Rels) : Option Nat → Res (List Nat)
  | none => .ok (r.out ++ r.inn ++ r.soft)
  | some 0 => .ok r.out
  | some 1 => .ok r.inn
  | some 2 => .ok r.soft
  | some _ => .error .index

/-- _catalogue.py:393-413 `_parts_list_filtered_by_related_uuid`; `none` for `None` -/
def filteredByRelated (db : Db) (ps : List Name) (u : Nat) (mode : Option Nat) : Res (Option (List Name)) :=
  if db.relsPresent then
    match db.rels u with
    | none => .ok (some [])
    | some r => match relSet r mode with
      | .error e => .error e
      | .ok all => match filterRes (fun p => match db.info p with
          | none => .error .key
          | some i => .ok (decide (i.uuid ∈ all))) ps with
        | .error e => .error e
        | .ok l => .ok (some l)
  else .ok none

/-- _catalogue.py:714-726 `_filtered_by_epc_subdir`: `part.startswith[epc_subdir]` raises TypeError -/
def filteredBySubdir (ps : List Name) (sub : List Char) : Res (List Name) :=
  if unslashed sub = [] then .ok ps
  else match ps with
    | [] => .ok []
    | _ :: _ => .error .type

/-! ### sorting -/

/-- order of Python strings; for `newestFirst` (_catalogue.py:677-692) -/
def leText : List Char → List Char → Bool
  | [], _ => true
  | _ :: _, [] => false
  | a :: as, b :: bs => if a = b then leText as bs else a.toNat ≤ b.toNat

/-- order of tuples (key, index); for `newestFirst` (_catalogue.py:677-692) -/
def leKey (a b : List Char × Nat) : Bool :=
  if a.1 = b.1 then a.2 ≤ b.2 else leText a.1 b.1

/-- `sort_list` of keys and indices, sorted, and the parts at the indices; for `newestFirst` (_catalogue.py:677-692) -/
def sortOn (key : Name → List Char) (ps : List Name) : List Name :=
  ((ps.zipIdx.map fun (p, i) => ((key p, i), p)).mergeSort (fun a b => leKey a.1 b.1)).map Prod.snd

/-- _catalogue.py:677-692 `_sort_parts_list_by_timestamp` -/
def newestFirst (db : Db) (ps : List Name) : List Name :=
  (sortOn (fun p => (db.info p).elim [] Info.created) ps).reverse

/-- _catalogue.py:799-819 `_sorted_parts_list`; for `sort_by = 'type'` plain sorting of the names -/
def sortedParts (db : Db) (ps : List Name) : SortBy → Res (List Name)
  | .type => .ok (sortOn (fun p => p) ps)
  | .newest => .ok (newestFirst db ps)
  | .oldest => .ok (newestFirst db ps).reverse
  | .uuid => match filterRes (fun p => if (db.info p).isSome then .ok true else .error .key) ps with
    | .error e => .error e
    | .ok _ => .ok (sortOn (fun p => (db.info p).elim [] fun i => Xml.uuidStr i.uuid) ps)
  | .title => .ok (sortOn (titleOf db) ps)
  | .invalid => .error .unbound

/-- the uuid and sub-directory stages, _catalogue.py:28-36 -/
def stageUuid (db : Db) (uuid : Option Nat) (ps : List Name) : List Name × Bool :=
  match uuid with
  | none => (ps, true)
  | some u => match db.byUuid u with
    | none => ([], false)
    | some p => if p ∈ ps then ([p], true) else ([], false)

/-- _catalogue.py:37-46: the object type stage -/
def stageType (db : Db) (objType : List Char) (ps : List Name) : Res (List Name × Bool) :=
  match objType with
  | [] => .ok (ps, true)
  | c :: _ =>
    let t := if isUpperAscii c then Xml.objPrefix ++ objType else objType
    match filterRes (fun p => match db.info p with
        | none => .error .key
        | some i => .ok (decide (i.ctype = t))) ps with
    | .error e => .error e
    | .ok l => .ok (l, !l.isEmpty)

/-- _catalogue.py:28-29: `if not parts_list` -/
def startOf (db : Db) : Option (List Name) → List Name
  | none => db.objects
  | some [] => db.objects
  | some (p :: ps) => p :: ps

/-- _catalogue.py:47-54: title, metadata, extra metadata and relationships -/
def stageRest (db : Db) (q : Query) (ps : List Name) : Res (Option (List Name)) :=
  match (if q.title = [] then .ok ps else filteredByTitle db ps q.title q.mode q.caseSensitive) with
  | .error e => .error e
  | .ok ps =>
    let ps := if q.metadata = [] then ps else filteredByMetadata db ps q.metadata
    let ps := if q.extra = [] then ps else filteredByExtra db ps q.extra
    match q.related with
    | none => .ok (some ps)
    | some u => filteredByRelated db ps u q.relMode

/-- _catalogue.py:55-57 -/
def stageSort (db : Db) (sortBy : Option SortBy) (r : Option (List Name)) : Res (Option (List Name)) :=
  match sortBy, r with
  | none, r => .ok r
  | some _, none => .error .type  -- len(None)
  | some _, some [] => .ok (some [])
  | some s, some (p :: ps) => match sortedParts db (p :: ps) s with
    | .error e => .error e
    | .ok l => .ok (some l)

/-- _catalogue.py:13-57 `_parts`; `none` for `None` -/
def parts (db : Db) (q : Query) : Res (Option (List Name)) :=
  match stageUuid db q.uuid (startOf db q.start) with
  | (_, false) => .ok (some [])
  | (ps, true) =>
    match (if q.subdir = [] then .ok ps else filteredBySubdir ps q.subdir) with
    | .error e => .error e
    | .ok ps => match stageType db q.objType ps with
      | .error e => .error e
      | .ok (_, false) => .ok (some [])
      | .ok (ps, true) => match stageRest db q ps with
        | .error e => .error e
        | .ok r => stageSort db q.sortBy r

/-- for `part` (_catalogue.py:60-101) -/
inductive Multiple where
  | exception | first | none | newest | oldest
deriving DecidableEq

/-- _catalogue.py:60-101 `_part` -/
def part (db : Db) (q : Query) (m : Multiple) : Res (Option Name) :=
  match parts db q with
  | .error e => .error e
  | .ok none => .error .type
  | .ok (some []) => .ok none
  | .ok (some [p]) => .ok (some p)
  | .ok (some (p :: p' :: ps)) => match m with
    | .first => .ok (some p)
    | .none => .ok none
    | .newest => .ok (newestFirst db (p :: p' :: ps)).head?
    | .oldest => .ok (newestFirst db (p :: p' :: ps)).getLast?
    | .exception => .error .value

end Verif.Query
