import Verif.Py.Basic

/-! # Model of data frames kept in a model

Source: resqpy/olio/dataframe.py, with the lookup tables of resqpy/property/string_lookup.py as far as data frames use them.

Identifiers are numbers, the next unused one being part of the state.  A table of strings keeps the list it was made from (the model of `Verif.Lookup` has the details, and C19
the proof); values of a frame are of any type.  The coordinate reference system, the kind of property and the writing of files are left out. -/

namespace Verif.DataTable
open Verif.Py

variable {α : Type}

/-- A pandas data frame; for `new` (dataframe.py:39-48) -/
structure Frame (α : Type) where
  cols : List String
  rows : List (List α)
deriving DecidableEq

/-- A string lookup table in the model; for `Store` (dataframe.py:111-118) -/
structure Lookup where
  uuid : Nat
  title : String
  names : List String
deriving DecidableEq

/-- A mesh which stands for a data frame: values as depths or as properties, each with its realization, and the related objects; for `Store` (dataframe.py:225-261) -/
structure Mesh (α : Type) where
  uuid : Nat
  title : String
  nRows : Nat
  nCols : Nat
  z : Option (List (List α))
  props : List (Option Int × List (List α))
  related : List Nat
deriving DecidableEq

/-- The parts of a model; time series have a number of timestamps; for `new` (dataframe.py:42) -/
structure Store (α : Type) where
  next : Nat
  lookups : List Lookup
  meshes : List (Mesh α)
  series : List (Nat × Nat)
deriving DecidableEq

/-- A `DataFrame` object, with the time series of a `TimeTable`; for `new` (dataframe.py:89-101, 306-310) -/
structure Obj (α : Type) where
  frame : Frame α
  nRows : Nat
  nCols : Nat
  uoms : Option (List String)
  realization : Option Int
  title : String
  mesh : Option Nat
  colUuid : Option Nat
  colLookup : Option Lookup
  uomUuid : Option Nat
  uomLookup : Option Lookup
  series : Option Nat
deriving DecidableEq

/-- The mesh of a uuid; for `load` (dataframe.py:104-106) -/
def Store.mesh? (s : Store α) (u : Nat) : Option (Mesh α) := s.meshes.find? fun m => m.uuid = u

/-- The lookup of a uuid; for `new` (dataframe.py:150) -/
def Store.lookup? (s : Store α) (u : Nat) : Option Lookup := s.lookups.find? fun l => l.uuid = u

/-- `model.uuid` with its default for several which match; for `load` (dataframe.py:111, 116, 304) -/
def only {β : Type} : List β → Res (Option β)
  | [] => .ok none
  | [b] => .ok (some b)
  | _ => .error .value

/-- Lookups with a title which are related to a mesh; for `load` (dataframe.py:111, 116) -/
def relatedLookups (s : Store α) (m : Mesh α) (title : String) : List Lookup := s.lookups.filter fun l => l.uuid ∈ m.related ∧ l.title = title

/-- dataframe.py:124-135 __init__: values from the only property, from that of the realization, or from depths; depths of a mesh without them are not data. -/
def valuesOf (m : Mesh α) (realization : Option Int) : Res (List (List α)) :=
  match m.props with
  | [] => if realization.isSome then .error .assertion else
      match m.z with
      | none => .error .assertion
      | some z => .ok z
  | [(r, a)] => if realization.isSome ∧ r ≠ realization then .error .assertion else .ok a
  | ps =>
    match realization with
    | none => .error .assertion
    | some r =>
      match ps.filter fun p => p.1 = some r with
      | [(_, a)] => .ok a
      | _ => .error .assertion

/-- dataframe.py:103-142 __init__: an object from a mesh; with a frame, for a new realization.  The uuid is that of a mesh for a data frame. -/
def load (s : Store α) (uuid : Nat) (df : Option (Frame α)) (realization : Option Int) : Res (Obj α) :=
  match s.mesh? uuid with
  | none => .error .assertion
  | some m =>
    match only (relatedLookups s m "dataframe columns") with
    | .error e => .error e
    | .ok none => .error .assertion
    | .ok (some cl) =>
      if cl.names.length ≠ m.nCols then .error .assertion
      else
        match only (relatedLookups s m "dataframe units") with
        | .error e => .error e
        | .ok ul =>
          let obj (f : Frame α) : Obj α := ⟨f, m.nRows, m.nCols, ul.map Lookup.names, realization, m.title, some m.uuid, some cl.uuid, some cl,
            ul.map Lookup.uuid, ul, none⟩
          match df with
          | none =>
            match valuesOf m realization with
            | .error e => .error e
            | .ok a => .ok (obj ⟨cl.names, a⟩)
          | some f =>
            if m.props.any (fun p => p.1 = realization) then .error .assertion
            else if f.rows.length ≠ m.nRows then .error .assertion
            else if f.cols.length ≠ m.nRows then .error .assertion
            else .ok (obj f)

/-- dataframe.py:144-163 __init__: an object from a frame.  A uuid which is not in the model is refused; in the code that of units is taken for an empty table. -/
def fresh (s : Store α) (df : Frame α) (uoms : Option (List String)) (realization : Option Int) (title : String) (colUuid uomUuid : Option Nat) : Res (Obj α) :=
  let cl := colUuid.bind s.lookup?
  let ul := uomUuid.bind s.lookup?
  if colUuid.isSome ∧ cl.isNone then .error .assertion
  else if cl.any fun l => l.names.length ≠ df.cols.length ∨ l.names ≠ df.cols then .error .assertion
  else if uomUuid.isSome ∧ ul.isNone then .error .assertion
  else if uoms.any fun u => u.length ≠ df.cols.length then .error .assertion
  else if uoms.any fun u => ul.any fun l => u ≠ l.names then .error .assertion
  else .ok ⟨df, df.rows.length, df.cols.length, if uoms.isSome then uoms else ul.map Lookup.names, realization, title, none, colUuid, cl, uomUuid, ul, none⟩

/-- dataframe.py:86-163 __init__ -/
def new (s : Store α) (uuid : Option Nat) (df : Option (Frame α)) (uoms : Option (List String)) (realization : Option Int) (title : String)
    (colUuid uomUuid : Option Nat) : Res (Obj α) :=
  match uuid, df with
  | none, none => .error .assertion
  | some u, none => load s u none realization
  | some u, some f => if realization.isNone then .error .assertion else load s u (some f) realization
  | none, some f => fresh s f uoms realization title colUuid uomUuid

/-- dataframe.py:89-101 __init__: the names of the attributes of an object; no others are set in the class. -/
def attributes : List String :=
  ["model", "df", "n_rows", "n_cols", "uom_list", "realization", "title", "mesh", "pc", "column_lookup_uuid", "column_lookup", "uom_lookup_uuid", "uom_lookup",
    "extra_metadata"]

/-- dataframe.py:170-176 column_uom; the table it reads is meant to be that of units. -/
def columnUom (o : Obj α) (i : Nat) : Res String :=
  if "units_table" ∉ attributes then .error .attribute
  else
    match o.uomLookup with
    | none => .ok "Euc"
    | some l => if i < o.nCols then .ok (l.names.getD i "") else .error .assertion

/-- dataframe.py:207-261 _set_mesh_from_df: only if there is no mesh yet; a mesh without rows or columns is refused (_mesh.py:339, 371). -/
def setMesh (s : Store α) (o : Obj α) : Res (Store α × Obj α) :=
  if o.nRows ≠ o.frame.rows.length ∨ o.nCols ≠ o.frame.cols.length then .error .assertion
  else
    match o.mesh with
    | some _ => .ok (s, o)
    | none =>
      if o.nRows = 0 ∨ o.nCols = 0 then .error .assertion
      else
        let m : Mesh α := ⟨s.next, o.title, o.nRows, o.nCols, if o.realization.isNone then some o.frame.rows else none,
          if o.realization.isNone then [] else [(o.realization, o.frame.rows)], []⟩
        .ok (⟨s.next + 1, s.lookups, s.meshes ++ [m], s.series⟩, { o with mesh := some s.next })

/-- string_lookup.py:182-218 create_xml, olio/base.py:93-120 try_reuse: an equal table which is there is used instead of a new one. -/
def createLookup (s : Store α) (title : String) (names : List String) : Store α × Lookup :=
  match s.lookups.find? fun l => l.title = title ∧ l.names = names with
  | some l => (s, l)
  | none => ({ s with next := s.next + 1, lookups := s.lookups ++ [⟨s.next, title, names⟩] }, ⟨s.next, title, names⟩)

/-- `create_reciprocal_relationship` from a mesh; for `write` (dataframe.py:192, 205, 322) -/
def relate (s : Store α) (mesh : Option Nat) (u : Nat) : Store α :=
  { s with meshes := s.meshes.map fun m => if some m.uuid = mesh then { m with related := m.related ++ [u] } else m }

/-- dataframe.py:183-192 write_hdf5_and_create_xml: the names of columns.  The uuid is noted before the table is replaced by an equal one: a new object takes the next number
for itself, which is not used for anything else. -/
def writeColumns (s : Store α) (o : Obj α) : Store α × Obj α :=
  match o.colLookup with
  | some l => (relate s o.mesh l.uuid, o)
  | none =>
    let own := s.next
    let (s, l) := createLookup s "dataframe columns" o.frame.cols
    let s := { s with next := max s.next (own + 1) }
    (relate s o.mesh l.uuid, { o with colLookup := some l, colUuid := some own })

/-- dataframe.py:194-205 write_hdf5_and_create_xml: the units of columns; an empty list counts as none. -/
def writeUnits (s : Store α) (o : Obj α) : Store α × Obj α :=
  match o.uomLookup, o.uoms with
  | some l, _ => (relate s o.mesh l.uuid, o)
  | none, none => (s, o)
  | none, some [] => (s, o)
  | none, some (u :: us) =>
    let own := s.next
    let (s, l) := createLookup s "dataframe units" (u :: us)
    let s := { s with next := max s.next (own + 1) }
    (relate s o.mesh l.uuid, { o with uomLookup := some l, uomUuid := some own })

/-- dataframe.py:178-205 write_hdf5_and_create_xml -/
def write (s : Store α) (o : Obj α) : Res (Store α × Obj α) :=
  match setMesh s o with
  | .error e => .error e
  | .ok (s, o) =>
    let (s, o) := writeColumns s o
    .ok (writeUnits s o)

/-- dataframe.py:293-310 TimeTable.__init__ from a frame. -/
def freshTimed (s : Store α) (df : Frame α) (uoms : Option (List String)) (realization : Option Int) (title : String) (colUuid uomUuid : Option Nat) (ts : Nat × Nat) :
    Res (Obj α) :=
  match fresh s df uoms realization title colUuid uomUuid with
  | .error e => .error e
  | .ok o => if ts.2 ≠ o.nRows then .error .assertion else .ok { o with series := some ts.1 }

/-- Time series related to a mesh; for `loadTimed` (dataframe.py:304, 350) -/
def relatedSeries (s : Store α) (m : Mesh α) : List (Nat × Nat) := s.series.filter fun t => t.1 ∈ m.related

/-- dataframe.py:293-306 TimeTable.__init__ from a mesh. -/
def loadTimed (s : Store α) (uuid : Nat) (realization : Option Int) : Res (Obj α) :=
  match load s uuid none realization with
  | .error e => .error e
  | .ok o =>
    match s.mesh? uuid with
    | none => .error .assertion
    | some m =>
      match only (relatedSeries s m) with
      | .error e => .error e
      | .ok none => .error .assertion
      | .ok (some t) => .ok { o with series := some t.1 }

/-- dataframe.py:317-322 TimeTable.write_hdf5_and_create_xml; for a plain data frame that of the base class. -/
def writeTimed (s : Store α) (o : Obj α) : Res (Store α × Obj α) :=
  match write s o with
  | .error e => .error e
  | .ok (s, o) =>
    match o.series with
    | none => .ok (s, o)
    | some t => .ok (relate s o.mesh t, o)

/-- dataframe.py:325-355 dataframe_parts_in_model, without related uuid: uuids in the order in which the meshes were added. -/
def framesIn (s : Store α) (timed : Option Bool) (title : Option String) : Res (List Nat) :=
  let ms := s.meshes.filter fun m => title.all fun t => m.title = t
  match timed with
  | none => .ok (ms.map Mesh.uuid)
  | some b =>
    if ms.any fun m => decide (2 ≤ (relatedSeries s m).length) then .error .value
    else .ok ((ms.filter fun m => decide ((relatedSeries s m ≠ []) = (b = true))).map Mesh.uuid)

/-- dataframe.py:375-382 dataframe_for_title -/
def frameForTitle (s : Store α) (title : String) (realization : Option Int) : Res (Option (Obj α)) :=
  match framesIn s none (some title) with
  | .error e => .error e
  | .ok [] => .ok none
  | .ok [u] => (load s u none realization).map some
  | .ok _ => .error .assertion

end Verif.DataTable
