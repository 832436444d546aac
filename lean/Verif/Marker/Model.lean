import Verif.Organize.Model

/-!
# Wellbore markers, frames of markers, wellbore frames and measured depth datums

Model of `resqpy/well/_wellbore_marker.py`, `resqpy/well/_wellbore_marker_frame.py`, `resqpy/well/_md_datum.py` and of the storing and
loading of `resqpy/well/_wellbore_frame.py`.

Simplifications, for the whole file.  Numbers are exact.  Xml trees and parts are as in `Verif.Organize.Model`; the attribute `uuid` of a
marker's node is represented by a child with the tag `@uuid`.  A trajectory is loaded without fail from any uuid which is that of a part.
The arrays in the hdf5 file are looked up by the uuid of their object: each class has one array only.  A new uuid is one which no part of
the model has.  A table is a number of rows with columns of numbers and columns of texts; its row labels and the columns X, Y and Z of the
export are left out.
-/

namespace Verif.Marker

open Verif.Py Verif.Organize

/-- A wellbore marker: its kind is `marker_type`.; for `markerNode` (_wellbore_marker.py:94-142) -/
structure Mark where
  uuid : Nat
  kind : Option String
  interp : Option Nat
  title : Option String
  md : Meta
deriving DecidableEq

/-- resqpy/well/_wellbore_marker.py:24-28 WellboreMarker: boundary_feature_dict. -/
def featureDict : List (String × List String) :=
  [("GeologicBoundaryKind", ["fault", "geobody", "horizon"]),
   ("FluidMarker", ["gas down to", "gas up to", "oil down to", "oil up to", "water down to", "water up to"]),
   ("FluidContact", ["free water contact", "gas oil contact", "gas water contact", "seal", "water oil contact"])]

/-- resqpy/well/_wellbore_marker.py:68-71 __init__: the kinds of markers, resqpy/well/_wellbore_marker_frame.py:130-132 from_dataframe -/
def validKinds : List String :=
  ["fault", "geobody", "horizon", "gas down to", "oil down to", "water down to", "gas up to", "oil up to", "water up to",
   "free water contact", "gas oil contact", "gas water contact", "water oil contact", "seal"]

/-- resqpy/well/_wellbore_marker.py:66-92 __init__: from values. -/
def newMark (uuid : Nat) (kind : Option String) (interp : Option Nat) (title : Option String) (md : Meta) : Res Mark :=
  if kind.all fun k => k ∈ validKinds then .ok ⟨uuid, kind, interp, title, md⟩ else .error .assertion

/-- resqpy/well/_wellbore_marker.py:116-120 create_xml: the variable is not set if the kind is not listed. -/
def boundaryKind (kind : Option String) : Res String :=
  match featureDict.find? fun kv => kind.any fun k => k ∈ kv.2 with
  | some kv => .ok kv.1
  | none => .error .unbound

/-- resqpy/model/_catalogue.py:594-601 _title_for_root: the text as it is. -/
def rawTitle (n : Node) : Option String := ((findTag n "Citation").bind fun c => findTag c "Title").map rawText

/-- resqpy/well/_wellbore_marker.py:127-134 create_xml: the reference to the interpretation. -/
def interpKids (s : Store) (i : Option Nat) : Res (List Node) :=
  match i with
  | none => .ok []
  | some u =>
    match (rootFor s u).bind rawTitle with
    | none => .error .attribute
    | some _ => .ok [refNode "Interpretation" u]

/-- resqpy/well/_wellbore_marker.py:94-142 create_xml; the title given is used only if the marker has none. -/
def markerNode (s : Store) (m : Mark) (title : String) : Res Node :=
  match boundaryKind m.kind with
  | .error e => .error e
  | .ok tag =>
    match interpKids s m.interp with
    | .error e => .error e
    | .ok i =>
      .ok (.mk "WellboreMarker" none none
        ([leaf "@uuid" (.uuid m.uuid), citation (if falsy m.title then some title else m.title), leaf tag (.str (m.kind.getD "None"))] ++
          i ++ m.md.map metaNode))

/-- A uuid which the model does not have.; for `createInterp` (_wellbore_marker_frame.py:197-215) -/
def fresh (s : Store) : Nat := (s.map Part.uuid).foldr max 0 + 1

/-- resqpy/well/_wellbore_marker.py:162-167 _load_from_xml: the kind, from the first of three tags found. -/
def kindFromTags (n : Node) : Option String :=
  ((findText n "GeologicBoundaryKind").or (findText n "FluidMarker")).or (findText n "FluidContact")

/-- resqpy/well/_wellbore_marker.py:174-182 _load_from_xml: the kind, from the type of the interpretation. -/
def kindFromInterp (s : Store) (i : Option Nat) : Option String :=
  match i.bind (typeOf s) with
  | some "HorizonInterpretation" => some "horizon"
  | some "FaultInterpretation" => some "fault"
  | some "GeobodyBoundaryInterpretation" => some "geobody"
  | _ => none

/-- resqpy/well/_wellbore_marker.py:144-186 _load_from_xml -/
def loadMarker (s : Store) (n : Node) : Res Mark :=
  match findTag n "Citation" with
  | none => .error .assertion
  | some c =>
    let i := refUuid n "Interpretation"
    match (kindFromTags n).or (kindFromInterp s i) with
    | none => .error .assertion
    | some k => .ok ⟨((findTag n "@uuid").bind nodeUuid).getD (fresh s), some k, i, findText c "Title", loadMeta n⟩

/-! ## Frames of markers -/

/-- A wellbore marker frame.; for `storeFrame` (_wellbore_marker_frame.py:281-324) -/
structure Frame where
  uuid : Nat
  title : Option String
  md : Meta
  traj : Option Nat
  count : Nat
  mds : List ℚ
  markers : Option (List Mark)
deriving DecidableEq

/-- The arrays in the hdf5 file by uuid, last written first.; for `storeFrame` (_wellbore_marker_frame.py:377-387) -/
abbrev Arrays := List (Nat × List ℚ)

/-- `' '.join` of those which are there; for `generatedTitle` (_wellbore_marker_frame.py:326-336) -/
def joinSome (l : List (Option String)) : String := " ".intercalate (l.filterMap id)

/-- resqpy/well/_wellbore_marker_frame.py:326-336 __get_wbm_node_title -/
def generatedTitle (s : Store) (wellName : Option String) (m : Mark) : Res String :=
  match boundaryKind m.kind with
  | .error e => .error e
  | .ok b => .ok (joinSome [wellName, some b, m.kind, (m.interp.bind (rootFor s)).bind rawTitle])

/-- resqpy/well/_wellbore_marker_frame.py:313-316 create_xml: one marker. -/
def frameMarker (s : Store) (wellName : Option String) (m : Mark) : Res Node :=
  match generatedTitle s wellName m with
  | .error e => .error e
  | .ok t => markerNode s m t

/-- Over all of a list, until the first failure.; for `storeFrame` (_wellbore_marker_frame.py:281-324) -/
def mapR {α β : Type} (f : α → Res β) : List α → Res (List β)
  | [] => .ok []
  | a :: l =>
    match f a with
    | .error e => .error e
    | .ok b =>
      match mapR f l with
      | .error e => .error e
      | .ok bs => .ok (b :: bs)

/-- `if not self.title: self.title = …`, resqpy/well/_wellbore_marker_frame.py:291-292 create_xml -/
def orTitle (t : Option String) (d : String) : Option String := if falsy t then some d else t

/-- resqpy/well/_wellbore_marker_frame.py:297-316 create_xml: the tree, and resqpy/well/_wellbore_marker_frame.py:338-353
__add_sub_elements_to_root_node -/
def frameNode (f : Frame) (t : Nat) (ms : List Node) : Node :=
  .mk "WellboreMarkerFrameRepresentation" none none
    (baseKids (orTitle f.title "wellbore marker framework") f.md ++
      [leaf "NodeCount" (.int f.count), .mk "NodeMd" none none [], refNode "Trajectory" t] ++ ms)

/-- resqpy/well/_wellbore_marker_frame.py:377-387 write_hdf5, resqpy/well/_wellbore_marker_frame.py:281-324 create_xml, with default
arguments.  Without a trajectory there is an attribute error (line 329 or 365). -/
def storeFrame (s : Store) (h : Arrays) (wellName : Option String) (f : Frame) : Res (Store × Arrays × Frame) :=
  match f.traj with
  | none => .error .attribute
  | some t =>
    match (rootFor s t).bind rawTitle with
    | none => .error .attribute
    | some _ =>
      match mapR (frameMarker s wellName) (f.markers.getD []) with
      | .error e => .error e
      | .ok ms =>
        .ok (s ++ [⟨f.uuid, "WellboreMarkerFrameRepresentation", frameNode f t ms⟩],
          (f.uuid, f.mds) :: h, { f with title := orTitle f.title "wellbore marker framework" })

/-- resqpy/well/_wellbore_marker_frame.py:217-244 _load_from_xml, and resqpy/well/_wellbore_marker_frame.py:66-79 __init__ -/
def loadFrame (s : Store) (h : Arrays) (u : Nat) : Res Frame :=
  match rootFor s u with
  | none => .error .attribute
  | some n =>
    match (refUuid n "Trajectory").bind (rootFor s) with
    | none => .error .attribute
    | some _ =>
      match mapR (loadMarker s) (listOfTag n "WellboreMarker") with
      | .error e => .error e
      | .ok ms =>
        match h.lookup u with
        | none => .error .key
        | some mds =>
          if findInt n "NodeCount" ≠ some (mds.length : Int) then .error .assertion
          else if findInt n "NodeCount" ≠ some (ms.length : Int) then .error .assertion
          else .ok ⟨u, citationTitle n, loadMeta n, refUuid n "Trajectory", mds.length, mds, some ms⟩

/-! ## Tables -/

/-- A table.; for `fromDataframe` (_wellbore_marker_frame.py:81-166) -/
structure Table where
  rows : Nat
  nums : List (String × (Nat → Option ℚ))
  texts : List (String × (Nat → Option String))

/-- resqpy/well/_wellbore_marker_frame.py:123-126 from_dataframe: a column must be there and have no blanks. -/
def fullColumn {α : Type} (rows : Nat) (c : Option (Nat → Option α)) : Res (Nat → Option α) :=
  match c with
  | none => .error .assertion
  | some g => if (List.range rows).all fun i => (g i).isSome then .ok g else .error .assertion

/-- `str.lower` (ASCII only); for `fromDataframe` (_wellbore_marker_frame.py:81-166) -/
def lower (s : String) : String := String.ofList (s.toList.map Char.toLower)

/-- `str.upper` (ASCII only); for `titleMatches` (_catalogue.py:729-743) -/
def upper (s : String) : String := String.ofList (s.toList.map Char.toUpper)

/-- resqpy/well/_wellbore_marker_frame.py:174-177 __parse_dataframe_row_for_interp_uuid: the type of the interpretation. -/
def interpType (kind : String) : Option String :=
  if kind = "horizon" then some "HorizonInterpretation"
  else if kind = "fault" then some "FaultInterpretation"
  else if kind = "geobody" then some "GeobodyInterpretation"
  else none

/-- resqpy/model/_catalogue.py:729-743 _filtered_by_title: one part, for mode 'is' without regard to case. -/
def titleMatches (t : String) (p : Part) : Bool := upper (strip ((citationTitle p.root).getD "")) == upper (strip t)

/-- resqpy/model/_catalogue.py:37-48 _parts: a blank title is no restriction. -/
def candidates (s : Store) (typ : String) (t : Option String) : Store :=
  s.filter fun p => p.typ == typ && (falsy t || titleMatches (t.getD "") p)

/-- `model.uuid(obj_type = …, title = …)`; more than one part is an exception (resqpy/model/_catalogue.py:60-101 _part). -/
def uuidFor (s : Store) (typ : String) (t : Option String) : Res (Option Nat) :=
  match candidates s typ t with
  | [] => .ok none
  | [p] => .ok (some p.uuid)
  | _ => .error .value

/-- resqpy/well/_wellbore_marker_frame.py:196-215 _create_feature_and_interpretation; the title of the interpretation is that of the
feature (resqpy/organize/horizon_interpretation.py:38-39 __init__, resqpy/organize/fault_interpretation.py:53-54 __init__). -/
def createInterp (s : Store) (kind : String) (t : Option String) : Res (Store × Nat) :=
  if kind = "fault" then
    match create (featCls .tectonic) s ⟨.tectonic, fresh s, t, [], some "fault", none, none, none⟩ true with
    | .error e => .error e
    | .ok (s, f) =>
      match create faultCls s ⟨⟨fresh s, f.title, [], some "depth", some f, (none, none)⟩, some true, none, none, none, none, none⟩ true with
      | .error e => .error e
      | .ok (s, i) => .ok (s, i.uuid)
  else
    match create (featCls .genetic) s ⟨.genetic, fresh s, t, [], some kind, none, none, none⟩ true with
    | .error e => .error e
    | .ok (s, f) =>
      match create (if kind = "horizon" then horizonCls else geobodyBoundaryCls) s
          ⟨⟨fresh s, f.title, [], some "depth", some f, (none, none)⟩, none, none⟩ true with
      | .error e => .error e
      | .ok (s, i) => .ok (s, i.uuid)

/-- resqpy/well/_wellbore_marker_frame.py:168-194 __parse_dataframe_row_for_interp_uuid; `col` is the column of interpretation titles, if
there is one. -/
def rowInterp (s : Store) (kind : String) (col : Option (Nat → Option String)) (make : Bool) (i : Nat) : Res (Store × Option Nat) :=
  match interpType kind, col with
  | none, _ => .ok (s, none)
  | some _, none => .ok (s, none)
  | some typ, some g =>
    match uuidFor s typ (g i) with
    | .error e => .error e
    | .ok (some u) => .ok (s, some u)
    | .ok none =>
      if make then
        match createInterp s kind (g i) with
        | .error e => .error e
        | .ok (s, u) => .ok (s, some u)
      else .error .value

/-- resqpy/well/_wellbore_marker_frame.py:137-153 from_dataframe: the rows; `mu` are the uuids of the new markers. -/
def rowMarkers (mu : Nat → Nat) (kinds titles : Nat → Option String) (col : Option (Nat → Option String)) (make : Bool) :
    List Nat → Store → Res (Store × List Mark)
  | [], s => .ok (s, [])
  | i :: is, s =>
    match rowInterp s (lower ((kinds i).getD "")) col make i with
    | .error e => .error e
    | .ok (s1, u) =>
      match newMark (mu i) (some (lower ((kinds i).getD ""))) u (titles i) [] with
      | .error e => .error e
      | .ok m =>
        match rowMarkers mu kinds titles col make is s1 with
        | .error e => .error e
        | .ok (s2, ms) => .ok (s2, m :: ms)

/-- The names of the columns, with those used if none are given: resqpy/well/_wellbore_marker_frame.py:86-89 from_dataframe -/
structure Cols where
  md : String := "MD"
  kind : String := "Boundary_Feature_Type"
  title : String := "Marker_Citation_Title"
  interp : String := "Interp_Citation_Title"

/-- resqpy/well/_wellbore_marker_frame.py:81-166 from_dataframe; the column of depths is of numbers, the others are of texts.  The depths
are taken from the column `MD` (line 161). -/
def fromDataframe (s : Store) (mu : Nat → Nat) (uuid traj : Nat) (d : Table) (c : Cols) (make : Bool) (title : Option String) :
    Res (Store × Frame) :=
  match fullColumn d.rows (d.nums.lookup c.md) with
  | .error e => .error e
  | .ok _ =>
    match fullColumn d.rows (d.texts.lookup c.kind) with
    | .error e => .error e
    | .ok kinds =>
      match fullColumn d.rows (d.texts.lookup c.title) with
      | .error e => .error e
      | .ok titles =>
        if !(List.range d.rows).all fun i => lower ((kinds i).getD "") ∈ validKinds then .error .assertion
        else
          match rowMarkers mu kinds titles (d.texts.lookup c.interp) make (List.range d.rows) s with
          | .error e => .error e
          | .ok (s1, ms) =>
            if (rootFor s1 traj).isSome then
              match d.nums.lookup "MD" with
              | none => .error .key
              | some mds =>
                .ok (s1, ⟨uuid, title, [], some traj, d.rows, (List.range d.rows).map fun i => (mds i).getD 0, some ms⟩)
            else .error .attribute

/-- resqpy/well/_wellbore_marker_frame.py:259-265 dataframe: the title of the interpretation. -/
def interpTitle (s : Store) (m : Mark) : Option String := (m.interp.bind (rootFor s)).bind rawTitle

/-- resqpy/well/_wellbore_marker_frame.py:246-279 dataframe; columns of different lengths are refused. -/
def dataframe (s : Store) (f : Frame) : Res Table :=
  match f.markers with
  | none => .error .type
  | some ms =>
    if f.count = f.mds.length ∧ f.count = ms.length then
      .ok ⟨f.count, [("MD", fun i => f.mds[i]?)],
        [("Boundary_Feature_Type", fun i => (ms[i]?).bind Mark.kind), ("Marker_Citation_Title", fun i => (ms[i]?).bind Mark.title),
         ("Interp_Citation_Title", fun i => (ms[i]?).bind (interpTitle s))]⟩
    else .error .value

/-! ## Finding markers -/

/-- `bu.matching_uuids`: false if either is missing; for `indexOfInterp` (_wellbore_marker_frame.py:389-410) -/
def sameUuid (a b : Option Nat) : Bool := a.isSome && a == b

/-- resqpy/well/_wellbore_marker_frame.py:389-410 find_marker_index_from_interp -/
def indexOfInterp (ms : List Mark) (u : Option Nat) : Option Nat :=
  match ms with
  | [] => none
  | m :: ms => if sameUuid m.interp u then some 0 else (indexOfInterp ms u).map (· + 1)

/-- resqpy/well/_wellbore_marker_frame.py:412-426 find_marker_from_index: an index below zero counts from the end. -/
def markerAt (ms : List Mark) (i : Int) : Option Mark :=
  if 0 ≤ i then ms[i.toNat]? else if (ms.length : Int) + i < 0 then none else ms[((ms.length : Int) + i).toNat]?

/-! ## Wellbore frames -/

/-- A wellbore frame.; for `storeWFrame` (_wellbore_frame.py:213-268) -/
structure WFrame where
  uuid : Nat
  title : Option String
  md : Meta
  traj : Option Nat
  interp : Option Nat
  mds : List ℚ
deriving DecidableEq

/-- resqpy/well/_wellbore_frame.py:102-106 __init__: from depths along a trajectory. -/
def newWFrame (uuid : Nat) (title : Option String) (md : Meta) (traj interp : Option Nat) (mds : List ℚ) : Res WFrame :=
  if 1 < mds.length then .ok ⟨uuid, title, md, traj, interp, mds⟩ else .error .assertion

/-- resqpy/well/_wellbore_frame.py:201-211 write_hdf5, resqpy/well/_wellbore_frame.py:213-268 create_xml; the interpretation is one which
is a part already. -/
def storeWFrame (s : Store) (h : Arrays) (f : WFrame) : Res (Store × Arrays × WFrame) :=
  match f.traj with
  | none => .error .assertion
  | some t =>
    if (rootFor s t).isNone then .error .assertion
    else if f.interp.any fun u => (rootFor s u).isNone then .error .attribute
    else
      .ok (s ++ [⟨f.uuid, "WellboreFrameRepresentation", .mk "WellboreFrameRepresentation" none none
          (baseKids (orTitle f.title "wellbore frame") f.md ++
            [leaf "NodeCount" (.int f.mds.length), .mk "NodeMd" none none [], refNode "Trajectory" t] ++
            optRef "RepresentedInterpretation" f.interp)⟩],
        (f.uuid, f.mds) :: h, { f with title := orTitle f.title "wellbore frame" })

/-- resqpy/well/_wellbore_frame.py:108-140 _load_from_xml; `given` is the trajectory handed to the constructor, if any. -/
def loadWFrame (s : Store) (h : Arrays) (given : Option Nat) (u : Nat) : Res WFrame :=
  match rootFor s u with
  | none => .error .attribute
  | some n =>
    match refUuid n "Trajectory" with
    | none => .error .assertion
    | some t =>
      if given.any fun g => g ≠ t then .error .assertion
      else
        match findInt n "NodeCount" with
        | none => .error .assertion
        | some c =>
          if c ≤ 1 then .error .assertion
          else if (findTag n "NodeMd").isNone then .error .assertion
          else
            match h.lookup u with
            | none => .error .key
            | some mds =>
              if (mds.length : Int) ≠ c then .error .assertion
              else .ok ⟨u, citationTitle n, loadMeta n, some t, refUuid n "RepresentedInterpretation", mds⟩

/-! ## Measured depth datums -/

/-- A measured depth datum.; for `storeDatum` (_md_datum.py:114-157) -/
structure Datum where
  uuid : Nat
  title : Option String
  md : Meta
  location : Option (ℚ × ℚ × ℚ)
  reference : String
  crs : Option Nat
deriving DecidableEq

/-- resqpy/well/_md_datum.py:18-22 valid_md_reference_list -/
def references : List String :=
  ["ground level", "kelly bushing", "mean sea level", "derrick floor", "casing flange", "arbitrary point", "crown valve",
   "rotary bushing", "rotary table", "sea floor", "lowest astronomical tide", "mean higher high water", "mean high water",
   "mean lower low water", "mean low water", "mean tide level", "kickoff point"]

/-- resqpy/well/_md_datum.py:68-81 __init__ -/
def newDatum (uuid : Nat) (title : Option String) (md : Meta) (location : Option (ℚ × ℚ × ℚ)) (reference : String) (crs : Option Nat) :
    Res Datum :=
  if location = none ∧ reference = "" then .ok ⟨uuid, title, md, location, reference, crs⟩
  else if location = none ∨ reference = "" then .error .assertion
  else if reference ∈ references then .ok ⟨uuid, title, md, location, reference, crs⟩
  else .error .assertion

/-- resqpy/well/_md_datum.py:114-157 create_xml; the crs must be a part of the right type
(resqpy/model/_xml.py:291-298 _create_crs_reference). -/
def storeDatum (s : Store) (d : Datum) : Res (Store × Datum) :=
  if lower d.reference ∉ references then .error .assertion
  else
    match d.crs with
    | none => .error .assertion
    | some c =>
      match d.location with
      | none => .error .type
      | some l =>
        if typeOf s c ≠ some "LocalDepth3dCrs" ∧ typeOf s c ≠ some "LocalTime3dCrs" then .error .assertion
        else
          .ok (s ++ [⟨d.uuid, "MdDatum", .mk "MdDatum" none none
              (baseKids (orTitle d.title "measured depth datum") d.md ++
                [.mk "Location" none none [leaf "Coordinate1" (.num l.1), leaf "Coordinate2" (.num l.2.1), leaf "Coordinate3" (.num l.2.2)],
                 leaf "MdReference" (.str (lower d.reference)), refNode "LocalCrs" c])⟩],
            { d with title := orTitle d.title "measured depth datum" })

/-- resqpy/well/_md_datum.py:87-89 _load_from_xml: the location. -/
def loadLocation (n : Node) : Option (ℚ × ℚ × ℚ) :=
  match findTag n "Location" with
  | none => none
  | some l =>
    match findNum l "Coordinate1", findNum l "Coordinate2", findNum l "Coordinate3" with
    | some x, some y, some z => some (x, y, z)
    | _, _, _ => none

/-- resqpy/well/_md_datum.py:83-104 _load_from_xml -/
def loadDatum (s : Store) (u : Nat) : Res Datum :=
  match rootFor s u with
  | none => .error .attribute
  | some n =>
    match findText n "MdReference" with
    | none => .error .attribute
    | some r =>
      if lower (strip r) ∉ references then .error .assertion
      else
        match refUuid n "LocalCrs" with
        | none => .error .attribute
        | some c => .ok ⟨u, citationTitle n, loadMeta n, loadLocation n, lower (strip r), some c⟩

/-- `np.isclose` with its default tolerances; for `eqvDatum` (_md_datum.py:159-166) -/
def npClose (a b : ℚ) : Bool := decide (|a - b| ≤ 1 / 100000000 + 1 / 100000 * |b|)

/-- resqpy/well/_md_datum.py:159-166 is_equivalent -/
def eqvDatum (a b : Datum) : Bool :=
  if a.reference ≠ b.reference then false
  else
    match a.location, b.location with
    | some l, some m =>
      if npClose l.1 m.1 && npClose l.2.1 m.2.1 && npClose l.2.2 m.2.2 then sameUuid a.crs b.crs else false
    | _, _ => false

end Verif.Marker
