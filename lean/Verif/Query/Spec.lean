import Verif.Query.Model

/-! # What it means for a part to satisfy the criteria of a query -/

namespace Verif.Query
open Verif.Py Verif.Catalogue

/-- the title criterion, on texts already stripped and, if wanted, in one case -/
def TitleFits (mode : TitleMode) (pt t : List Char) : Prop :=
  match mode with
  | .is => pt = t
  | .starts => t <+: pt
  | .ends => t <:+ pt
  | .contains => t <:+: pt
  | .isNot => pt ≠ t
  | .notStart => ¬ t <+: pt
  | .notEnd => ¬ t <:+ pt
  | .notContain => ¬ t <:+: pt
  | .invalid => False

/-- the relations of the kind asked for hold `v` -/
def RelHas (r : Rels) (mode : Option Nat) (v : Nat) : Prop :=
  match mode with
  | none => v ∈ r.out ∨ v ∈ r.inn ∨ v ∈ r.soft
  | some 0 => v ∈ r.out
  | some 1 => v ∈ r.inn
  | some 2 => v ∈ r.soft
  | some _ => False

/-- One criterion. -/
inductive Criterion where
  | uuid (u : Nat)
  | objType (t : List Char)
  | title (t : List Char) (mode : TitleMode) (caseSensitive : Bool)
  | metadata (k v : List Char)
  | extra (k v : List Char)
  | related (u : Nat) (mode : Option Nat)

/-- A part satisfies a criterion. -/
def Sat (db : Db) (p : Name) : Criterion → Prop
  | .uuid u => db.byUuid u = some p
  | .objType t => ∃ i, db.info p = some i ∧
      i.ctype = if isUpperAscii (t.headD 'x') then Xml.objPrefix ++ t else t
  | .title t mode cs => ∃ i, db.info p = some i ∧
      if cs then TitleFits mode (strip i.title) (strip t) else TitleFits mode (upper (strip i.title)) (upper (strip t))
  | .metadata k v => ∃ i, db.info p = some i ∧ i.tag k = some v
  | .extra k v => ∃ i, db.info p = some i ∧ i.extra.get? k = some v
  | .related u mode => ∃ i r, db.info p = some i ∧ db.rels u = some r ∧
      RelHas r mode i.uuid

/-- The criteria given in a query (an empty text or dictionary is no criterion). -/
def criteria (q : Query) : List Criterion :=
  (q.uuid.toList.map .uuid) ++
  (if q.objType = [] then [] else [.objType q.objType]) ++
  (if q.title = [] then [] else [.title q.title q.mode q.caseSensitive]) ++
  (q.metadata.map fun kv => .metadata kv.1 kv.2) ++
  (q.extra.map fun kv => .extra kv.1 kv.2) ++
  (q.related.toList.map fun u => .related u q.relMode)

/-- The list the query starts from. -/
def startList (db : Db) (q : Query) : List Name := q.start.getD db.objects

/-- `l` holds, in the order of the starting list, exactly its parts that satisfy all the criteria. -/
def Selects (db : Db) (start : List Name) (cs : List Criterion) (l : List Name) : Prop :=
  l.Sublist start ∧ ∀ p, p ∈ l ↔ p ∈ start ∧ ∀ c ∈ cs, Sat db p c

/-- Queries without a defect of form: the parts started from are in the catalogue, none twice; the title
mode and relationship mode exist; relationships are present in the model when asked about. -/
structure WellFormed (db : Db) (q : Query) : Prop where
  known : ∀ p ∈ startList db q, (db.info p).isSome
  once : (startList db q).Nodup
  mode : q.mode ≠ .invalid
  relMode : ∀ m, q.relMode = some m → m < 3
  rels : q.related.isSome → db.relsPresent = true

end Verif.Query
