import Verif.Py.Basic
import Verif.Py.Text
import Mathlib.Algebra.Order.Field.Rat

/-!
# Features, interpretations and stratigraphic columns

Model of `resqpy/organize/*.py`, `resqpy/strata/*.py` and of the base class in `resqpy/olio/base.py`: objects with their attributes, the
xml trees written for them, loading from such trees, the tests for equivalence, and the reuse of equivalent parts.

Simplifications, for the whole file.  A part of a model is its uuid, its type and its xml tree; the catalogue with its relationships is
modelled elsewhere.  Namespace prefixes of tags are left out, as are the attributes of nodes other than `uom`, the originator, the date
and the format of the citation, and titles and content types in references to other parts.  The text of a node written from a number,
a boolean or a uuid is represented by that value: reading undoes writing.  Arguments which give the xml root of a feature, and title
suffixes, are left out.  An object is loaded from a uuid only if the model has a part with it.
-/

namespace Verif.Organize

open Verif.Py

/-- The text of an xml node.; for `dipKids` (fault_interpretation.py:219-222) -/
inductive Txt where
  | str (s : String)
  | int (z : Int)
  | num (q : ℚ)
  | uuid (n : Nat)
  | bool (b : Bool)
deriving DecidableEq

/-- An xml node: tag, attribute `uom`, text and children.; for `contactRef` (_binary_contact_interpretation.py:163-178) -/
inductive Node where
  | mk (tag : String) (uom : Option String) (text : Option Txt) (kids : List Node)

namespace Node
/-- tag of a node; for `contactRef` (_binary_contact_interpretation.py:163-178) -/
def tag : Node → String | .mk t _ _ _ => t
/-- attribute `uom` of a node; for `contactRef` (_binary_contact_interpretation.py:163-178) -/
def uom : Node → Option String | .mk _ u _ _ => u
/-- text of a node; for `contactRef` (_binary_contact_interpretation.py:163-178) -/
def text : Node → Option Txt | .mk _ _ x _ => x
/-- children of a node; for `contactRef` (_binary_contact_interpretation.py:163-178) -/
def kids : Node → List Node | .mk _ _ _ k => k
end Node

/-- A node with a text only (`SubElement`, `.text = …`).; for `contactRef` (_binary_contact_interpretation.py:163-178) -/
def leaf (tag : String) (t : Txt) : Node := .mk tag none (some t) []

/-- `str.strip` (white space of ASCII only).; for `nodeText` (xml_et.py:557-565) -/
def strip (s : String) : String :=
  String.ofList (((s.toList.dropWhile isWS).reverse.dropWhile isWS).reverse)

/-- resqpy/olio/xml_et.py:83-93 find_tag -/
def findTag (n : Node) (tag : String) : Option Node := n.kids.find? fun k => k.tag == tag

/-- resqpy/olio/xml_et.py:232-241 list_of_tag -/
def listOfTag (n : Node) (tag : String) : List Node := n.kids.filter fun k => k.tag == tag

/-- resqpy/olio/xml_et.py:557-565 node_text, for texts written as text. -/
def nodeText (n : Node) : Option String :=
  match n.text with
  | some (.str s) => if strip s = "" then none else some (strip s)
  | _ => none

/-- resqpy/olio/xml_et.py:96-106 find_tag_text -/
def findText (n : Node) (tag : String) : Option String := (findTag n tag).bind nodeText

/-- resqpy/olio/xml_et.py:568-573 node_bool -/
def nodeBool (n : Node) : Option Bool :=
  match n.text with
  | some (.bool b) => some b
  | _ => none

/-- resqpy/olio/xml_et.py:109-119 find_tag_bool -/
def findBool (n : Node) (tag : String) : Option Bool := (findTag n tag).bind nodeBool

/-- resqpy/olio/xml_et.py:576-586 node_int -/
def nodeInt (n : Node) : Option Int :=
  match n.text with
  | some (.int z) => some z
  | _ => none

/-- resqpy/olio/xml_et.py:122-132 find_tag_int -/
def findInt (n : Node) (tag : String) : Option Int := (findTag n tag).bind nodeInt

/-- resqpy/olio/xml_et.py:589-599 node_float -/
def nodeNum (n : Node) : Option ℚ :=
  match n.text with
  | some (.num q) => some q
  | _ => none

/-- resqpy/olio/xml_et.py:135-145 find_tag_float -/
def findNum (n : Node) (tag : String) : Option ℚ := (findTag n tag).bind nodeNum

/-- The uuid named by a node, `bu.uuid_from_string` of its text.; for `loadContact` (_binary_contact_interpretation.py:77-111) -/
def nodeUuid (n : Node) : Option Nat :=
  match n.text with
  | some (.uuid u) => some u
  | _ => none

/-- `bu.uuid_from_string(find_nested_tags_text(n, [tag, 'UUID']))`, resqpy/olio/xml_et.py:148-158, 179-187 -/
def refUuid (n : Node) (tag : String) : Option Nat := (findTag n tag).bind fun r => (findTag r "UUID").bind nodeUuid

/-- resqpy/model/_xml.py:130-166 _create_ref_node -/
def refNode (flavour : String) (u : Nat) : Node := .mk flavour none none [leaf "UUID" (.uuid u)]

/-- resqpy/olio/xml_et.py:663-666 citation_title_for_node -/
def citationTitle (n : Node) : Option String := (findTag n "Citation").bind fun c => findText c "Title"

/-- A part of a model.; for `unitOf` (_stratigraphic_column_rank.py:105-106) -/
structure Part where
  uuid : Nat
  typ : String
  root : Node

/-- The parts of a model.; for `unitOf` (_stratigraphic_column_rank.py:105-106) -/
abbrev Store := List Part

/-- `model.root_for_uuid`; for `loadRank` (_stratigraphic_column_rank.py:72-93) -/
def rootFor (s : Store) (u : Nat) : Option Node := (s.find? fun p => p.uuid == u).map Part.root

/-- `model.type_of_uuid(u, strip_obj = True)`; for `unitOf` (_stratigraphic_column_rank.py:105-106) -/
def typeOf (s : Store) (u : Nat) : Option String := (s.find? fun p => p.uuid == u).map Part.typ

/-- `model.uuids(obj_type = t)`; for `tryReuse` (base.py:93-120) -/
def uuidsOf (s : Store) (t : String) : List Nat := (s.filter fun p => p.typ == t).map Part.uuid

/-- `not title` in Python: no title or an empty one.; for `citation` (_xml.py:204-243) -/
def falsy (t : Option String) : Bool := t == none || t == some ""

/-- Extra metadata; names and values loaded from blank texts are missing.; for `setContacts` (_stratigraphic_column_rank.py:116-152) -/
abbrev Meta := Dict (Option String) (Option String)

/-- `str` of a text which may be missing; for `metaNode` (xml_et.py:793-810) -/
def strOf (t : Option String) : String := t.getD "None"

/-- resqpy/model/_xml.py:204-243 _create_citation: the title. -/
def citation (title : Option String) : Node :=
  .mk "Citation" none none [leaf "Title" (.str (if falsy title then "untitled" else title.getD ""))]

/-- resqpy/olio/xml_et.py:793-810 create_metadata_xml: one node for each item. -/
def metaNode (kv : Option String × Option String) : Node :=
  .mk "ExtraMetadata" none none [leaf "Name" (.str (strOf kv.1)), leaf "Value" (.str (strOf kv.2))]

/-- resqpy/olio/base.py:143-169 create_xml: the children which every part has. -/
def baseKids (title : Option String) (m : Meta) : List Node := citation title :: m.map metaNode

/-- resqpy/olio/xml_et.py:775-777 load_metadata_from_xml: one item. -/
def loadMetaStep (d : Meta) (n : Node) : Meta := Dict.set d (findText n "Name") (findText n "Value")

/-- resqpy/olio/xml_et.py:767-778 load_metadata_from_xml -/
def loadMeta (n : Node) : Meta := (listOfTag n "ExtraMetadata").foldl loadMetaStep []

/-- Equality of two dictionaries.; for `eqvMeta` (_utils.py:19-39) -/
def dictEq (a b : Meta) : Bool := a.length == b.length && a.all fun kv => Dict.get? b kv.1 == some kv.2

/-- resqpy/organize/_utils.py:19-39 equivalent_extra_metadata -/
def eqvMeta (a b : Meta) : Bool :=
  if (0 < a.length) ≠ (0 < b.length) then false else if ¬ 0 < a.length then true else dictEq a b

/-- One of the two uuids of a pair of chronostratigraphic units: a uuid object, or the text form of one as loaded from xml.; for `loadHod` (_utils.py:42-49) -/
inductive UV where
  | uuid (n : Nat)
  | text (n : Nat)
deriving DecidableEq

/-- The number of the uuid; `str` of either form is the same.; for `nodeNum` (xml_et.py:589-599) -/
def UV.num : UV → Nat
  | .uuid n => n
  | .text n => n

/-- The pair of chronostratigraphic units, base and top (`has_occurred_during`).; for `setContacts` (_stratigraphic_column_rank.py:116-152) -/
abbrev Hod := Option UV × Option UV

/-- resqpy/organize/_utils.py:52-63 equivalent_chrono_pairs (a uuid object is never equal to a text) -/
def eqvHod (a b : Hod) : Bool :=
  if a = b then true else if a = (none, none) ∨ b = (none, none) then false else false

/-- resqpy/organize/_utils.py:66-79 create_xml_has_occurred_during -/
def hodKids : Hod → List Node
  | (some a, some b) => [.mk "HasOccuredDuring" none none [refNode "ChronoBottom" a.num, refNode "ChronoTop" b.num]]
  | _ => []

/-- resqpy/organize/_utils.py:42-49 extract_has_occurred_during -/
def loadHod (n : Node) : Hod :=
  match findTag n "HasOccuredDuring" with
  | none => (none, none)
  | some h => ((refUuid h "ChronoBottom").map UV.text, (refUuid h "ChronoTop").map UV.text)

/-! ## Parts and their reuse -/

/-- What is needed of a class of objects to create parts from them.; for `rankCls` (_stratigraphic_column_rank.py:21-260) -/
structure Cls (α : Type) where
  /-- `resqml_type` -/
  typ : String
  /-- `obj.uuid` -/
  uuid : α → Nat
  /-- `obj.uuid = …` -/
  setUuid : α → Nat → α
  /-- `Class(model, uuid = …)` -/
  load : Store → Nat → Res α
  /-- `self == other` -/
  eqv : Store → α → α → Res Bool
  /-- what `create_xml` does before looking for a part to reuse -/
  prep : Store → α → Res α
  /-- what `create_xml` does after that: parts added before, the xml tree, and the object with its changes -/
  write : Store → α → Res (Store × Node × α)

/-- resqpy/olio/base.py:107-120 try_reuse: the loop. -/
def tryReuseIn {α : Type} (c : Cls α) (s : Store) (x : α) : List Nat → Res (Bool × α)
  | [] => .ok (false, x)
  | u :: us =>
    if c.uuid x = u then .ok (true, x)
    else
      match c.load s u with
      | .error _ => .ok (false, x)
      | .ok y =>
        match c.eqv s x y with
        | .error e => .error e
        | .ok true => .ok (true, c.setUuid x u)
        | .ok false => tryReuseIn c s x us

/-- resqpy/olio/base.py:93-120 try_reuse -/
def tryReuse {α : Type} (c : Cls α) (s : Store) (x : α) : Res (Bool × α) :=
  if (rootFor s (c.uuid x)).isSome then .ok (true, x) else tryReuseIn c s x (uuidsOf s c.typ)

/-- `create_xml` with its default arguments, `reuse` apart, of any of the classes, for example
resqpy/organize/boundary_feature.py:35-39 create_xml.  A part is only added under a uuid which the model does not have. -/
def create {α : Type} (c : Cls α) (s : Store) (x : α) (reuse : Bool) : Res (Store × α) :=
  match c.prep s x with
  | .error e => .error e
  | .ok x =>
    match (if reuse then tryReuse c s x else .ok (false, x)) with
    | .error e => .error e
    | .ok (true, x) => .ok (s, x)
    | .ok (false, x) =>
      match c.write s x with
      | .error e => .error e
      | .ok (s, n, x) => .ok (s ++ [⟨c.uuid x, c.typ, n⟩], x)

/-! ## Features -/

/-- The classes of features.; for `FC.typ` (boundary_feature.py:12) -/
inductive FC where
  | boundary | frontier | geobody | geologicUnit | wellbore | stratUnit | genetic | tectonic | fluid | organization
deriving DecidableEq

/-- A feature.  Only genetic boundary, tectonic boundary, fluid boundary and organization features have a kind, only genetic boundary
features an age, and only stratigraphic unit features top and bottom units.; for `loadFeat` (base.py:58-65) -/
structure Feat where
  cls : FC
  uuid : Nat
  title : Option String
  md : Meta
  kind : Option String
  age : Option (Option String × Option Int)
  bottom : Option Nat
  top : Option Nat
deriving DecidableEq

/-- `resqml_type` of the classes of features: resqpy/organize/boundary_feature.py:12 BoundaryFeature etc. -/
def FC.typ : FC → String
  | .boundary => "BoundaryFeature"
  | .frontier => "FrontierFeature"
  | .geobody => "GeobodyFeature"
  | .geologicUnit => "GeologicUnitFeature"
  | .wellbore => "WellboreFeature"
  | .stratUnit => "StratigraphicUnitFeature"
  | .genetic => "GeneticBoundaryFeature"
  | .tectonic => "TectonicBoundaryFeature"
  | .fluid => "FluidBoundaryFeature"
  | .organization => "OrganizationFeature"

/-- `valid_kinds`: resqpy/organize/genetic_boundary_feature.py:16 GeneticBoundaryFeature,
resqpy/organize/tectonic_boundary_feature.py:16 TectonicBoundaryFeature, resqpy/organize/fluid_boundary_feature.py:16
FluidBoundaryFeature, resqpy/organize/organization_feature.py:15 OrganizationFeature -/
def FC.validKinds : FC → List String
  | .genetic => ["horizon", "geobody boundary"]
  | .tectonic => ["fault", "fracture"]
  | .fluid => ["free water contact", "gas oil contact", "gas water contact", "seal", "water oil contact"]
  | .organization => ["earth model", "fluid", "stratigraphic", "structural"]
  | _ => []

/-- resqpy/organize/genetic_boundary_feature.py:37-40 _load_from_xml: the absolute age. -/
def loadAge (n : Node) : Option (Option String × Option Int) :=
  (findTag n "AbsoluteAge").map fun a => (findText a "DateTime", findInt a "YearOffset")

/-- resqpy/organize/tectonic_boundary_feature.py:33-36 _load_from_xml -/
def faultIfNone (k : Option String) : Option String := if falsy k then some "fault" else k

/-- Loading a feature: resqpy/olio/base.py:58-65 __init__, resqpy/organize/genetic_boundary_feature.py:35-40 _load_from_xml,
resqpy/organize/tectonic_boundary_feature.py:33-36 _load_from_xml, resqpy/organize/fluid_boundary_feature.py:45-46 _load_from_xml,
resqpy/organize/organization_feature.py:44-45 _load_from_xml, resqpy/strata/_stratigraphic_unit_feature.py:84-96 _load_from_xml -/
def loadFeat (c : FC) (s : Store) (u : Nat) : Res Feat :=
  match rootFor s u with
  | none => .error .attribute
  | some n =>
    let f : Feat := ⟨c, u, citationTitle n, loadMeta n, none, none, none, none⟩
    match c with
    | .genetic => .ok { f with kind := findText n "GeneticBoundaryKind", age := loadAge n }
    | .tectonic => .ok { f with kind := faultIfNone (findText n "TectonicBoundaryKind") }
    | .fluid => .ok { f with kind := findText n "FluidContact" }
    | .organization => .ok { f with kind := findText n "OrganizationKind" }
    | .stratUnit => .ok { f with bottom := refUuid n "ChronostratigraphicBottom", top := refUuid n "ChronostratigraphicTop" }
    | _ => .ok f

/-- is_equivalent of features: resqpy/organize/boundary_feature.py:24-33 is_equivalent,
resqpy/organize/frontier_feature.py:24-33 is_equivalent, resqpy/organize/geobody_feature.py:31-40 is_equivalent,
resqpy/organize/geologic_unit_feature.py:24-33 is_equivalent, resqpy/organize/wellbore_feature.py:27-35 is_equivalent,
resqpy/strata/_stratigraphic_unit_feature.py:65-82 is_equivalent,
resqpy/organize/genetic_boundary_feature.py:42-50 is_equivalent, resqpy/organize/tectonic_boundary_feature.py:38-46 is_equivalent,
resqpy/organize/fluid_boundary_feature.py:34-43 is_equivalent, resqpy/organize/organization_feature.py:34-42 is_equivalent -/
def eqvFeat (check : Bool) (a b : Feat) : Bool :=
  if b.cls ≠ a.cls then false
  else if a.uuid = b.uuid then true
  else if check && !eqvMeta a.md b.md then false
  else
    match a.cls with
    | .genetic => a.title == b.title && a.kind == b.kind && a.age == b.age
    | .tectonic | .fluid | .organization => a.title == b.title && a.kind == b.kind
    | _ => a.title == b.title

/-- The test of a feature which may be missing against another, for example
resqpy/organize/boundary_feature_interpretation.py:62-67 is_equivalent -/
def eqvFeat? (check : Bool) : Option Feat → Option Feat → Bool
  | some a, some b => eqvFeat check a b
  | none, none => true
  | _, _ => false

/-- resqpy/organize/genetic_boundary_feature.py:65-76 create_xml: the age. -/
def ageKids : Option (Option String × Option Int) → List Node
  | none => []
  | some (d, y) => [.mk "AbsoluteAge" none none
      (leaf "DateTime" (.str (strOf d)) :: (y.map fun y => leaf "YearOffset" (.int y)).toList)]

/-- A node with a text for a value which may be missing.; for `writeRank` (_stratigraphic_column_rank.py:198-260) -/
def optLeaf (tag : String) (t : Option String) : List Node := (t.map fun t => leaf tag (.str t)).toList

/-- A node with a reference for a uuid which may be missing.; for `contactNode` (_binary_contact_interpretation.py:113-183) -/
def optRef (tag : String) (u : Option Nat) : List Node := (u.map (refNode tag)).toList

/-- create_xml of features, after the search for a part to reuse: resqpy/organize/genetic_boundary_feature.py:58-81 create_xml,
resqpy/organize/tectonic_boundary_feature.py:54-64 create_xml, resqpy/organize/fluid_boundary_feature.py:54-67 create_xml,
resqpy/organize/organization_feature.py:53-65 create_xml, resqpy/strata/_stratigraphic_unit_feature.py:116-130 create_xml,
resqpy/organize/boundary_feature.py:39 create_xml -/
def featNode (f : Feat) : Res Node :=
  let k := baseKids f.title f.md
  match f.cls with
  | .genetic =>
    if f.kind.any fun x => x ∈ FC.genetic.validKinds then
      .ok (.mk f.cls.typ none none (k ++ optLeaf "GeneticBoundaryKind" f.kind ++ ageKids f.age))
    else .error .assertion
  | .tectonic =>
    if f.kind.any fun x => x ∈ FC.tectonic.validKinds then
      .ok (.mk f.cls.typ none none (k ++ optLeaf "TectonicBoundaryKind" f.kind))
    else .error .assertion
  | .fluid =>
    if f.kind.any fun x => x ∈ FC.fluid.validKinds then
      .ok (.mk f.cls.typ none none (k ++ optLeaf "FluidContact" f.kind))
    else .error .value
  | .organization =>
    if f.kind.any fun x => x ∈ FC.organization.validKinds then
      .ok (.mk f.cls.typ none none (k ++ optLeaf "OrganizationKind" f.kind))
    else .error .value
  | .stratUnit =>
    .ok (.mk f.cls.typ none none
      (k ++ optRef "ChronostratigraphicBottom" f.bottom ++ optRef "ChronostratigraphicTop" f.top))
  | _ => .ok (.mk f.cls.typ none none k)

/-- A class of features.; for `writeBoundaryInterp` (boundary_feature_interpretation.py:87-112) -/
def featCls (c : FC) : Cls Feat where
  typ := c.typ
  uuid := Feat.uuid
  setUuid f u := { f with uuid := u }
  load s u := loadFeat c s u
  eqv _ a b := .ok (eqvFeat true a b)
  prep _ f := .ok f
  write s f := (featNode f).map fun n => (s, n, f)

/-! ## Interpretations -/

/-- `valid_domains` of interpretations: resqpy/organize/horizon_interpretation.py:16 HorizonInterpretation,
resqpy/strata/_strata_common.py:12 valid_domains -/
def validDomains : List String := ["depth", "time", "mixed"]

/-- `assert self.domain in self.valid_domains`; for `writeRank` (_stratigraphic_column_rank.py:198-260) -/
def domainOk (d : Option String) : Bool := d.any fun x => x ∈ validDomains

/-- What interpretations have in common.; for `loadInterp` (base.py:58-65) -/
structure Interp where
  uuid : Nat
  title : Option String
  md : Meta
  domain : Option String
  feature : Option Feat
  hod : Hod
deriving DecidableEq

/-- The feature of an interpretation when loading: resqpy/organize/horizon_interpretation.py:52-60 _load_from_xml etc.; a missing
reference fails an assertion. -/
def loadFeature (c : FC) (s : Store) (n : Node) : Res (Option Feat) :=
  match findTag n "InterpretedFeature" with
  | none => .error .assertion
  | some _ =>
    match refUuid n "InterpretedFeature" with
    | none => .ok none
    | some u => if (rootFor s u).isSome then (loadFeat c s u).map some else .ok none

/-- Loading what interpretations have in common: resqpy/olio/base.py:58-65 __init__,
resqpy/organize/earth_model_interpretation.py:43-54 _load_from_xml,
resqpy/organize/boundary_feature_interpretation.py:42-53 _load_from_xml -/
def loadInterp (c : FC) (s : Store) (u : Nat) : Res (Interp × Node) :=
  match rootFor s u with
  | none => .error .attribute
  | some n =>
    match loadFeature c s n with
    | .error e => .error e
    | .ok f => .ok (⟨u, citationTitle n, loadMeta n, findText n "Domain", f, loadHod n⟩, n)

/-- `if not self.title: self.title = self.feature.feature_name`, for example
resqpy/organize/horizon_interpretation.py:110-111 create_xml -/
def withTitle (i : Interp) : Res Interp :=
  if falsy i.title then
    match i.feature with
    | none => .error .attribute
    | some f => .ok { i with title := f.title }
  else .ok i

/-- The citation titles of two parts, if both or neither are in the model, for example
resqpy/organize/horizon_interpretation.py:82-86 is_equivalent -/
def sameRoots (s : Store) (u v : Nat) : Bool :=
  match rootFor s u, rootFor s v with
  | some a, some b => citationTitle a == citationTitle b
  | none, none => true
  | _, _ => false

/-- resqpy/organize/boundary_feature_interpretation.py:55-75 is_equivalent -/
def eqvBoundaryInterp (check : Bool) (a b : Interp) : Bool :=
  if a.uuid = b.uuid then true
  else if !eqvFeat? check a.feature b.feature then false
  else if a.title ≠ b.title then false
  else if a.domain ≠ b.domain ∨ !eqvHod a.hod b.hod then false
  else if check && !eqvMeta a.md b.md then false
  else true

/-- resqpy/organize/boundary_feature_interpretation.py:87-112 create_xml: the feature becomes a part if it is not one. -/
def writeBoundaryInterp (s : Store) (i : Interp) : Res (Store × Node × Interp) :=
  match i.feature with
  | none => .error .attribute
  | some f =>
    match (if (rootFor s f.uuid).isSome then .ok (s, f) else create (featCls .boundary) s f true) with
    | .error e => .error e
    | .ok (s, f) =>
      if domainOk i.domain then
        .ok (s, .mk "BoundaryFeatureInterpretation" none none
          (baseKids i.title i.md ++ optLeaf "Domain" i.domain ++ hodKids i.hod ++ [refNode "InterpretedFeature" f.uuid]),
          { i with feature := some f })
      else .error .assertion

/-- resqpy/organize/boundary_feature_interpretation.py:12-112 BoundaryFeatureInterpretation -/
def boundaryInterpCls : Cls Interp where
  typ := "BoundaryFeatureInterpretation"
  uuid := Interp.uuid
  setUuid i u := { i with uuid := u }
  load s u := (loadInterp .boundary s u).map Prod.fst
  eqv _ a b := .ok (eqvBoundaryInterp true a b)
  prep _ i := withTitle i
  write := writeBoundaryInterp

/-- resqpy/organize/earth_model_interpretation.py:56-76 is_equivalent -/
def eqvEarthModel (check : Bool) (s : Store) (a b : Interp) : Bool :=
  if a.uuid = b.uuid then true
  else if !eqvFeat? check a.feature b.feature then false
  else if !sameRoots s a.uuid b.uuid then false
  else if check && !eqvMeta a.md b.md then false
  else a.domain == b.domain && eqvHod a.hod b.hod

/-- The uuid of the feature, which must be a part of the model: resqpy/organize/earth_model_interpretation.py:98-106 create_xml
(the exception raised otherwise depends on the class). -/
def featureRoot (e : PyErr) (s : Store) (f : Option Feat) : Res Nat :=
  match f with
  | none => .error e
  | some f => if (rootFor s f.uuid).isSome then .ok f.uuid else .error e

/-- resqpy/organize/earth_model_interpretation.py:96-127 create_xml -/
def writeEarthModel (s : Store) (i : Interp) : Res (Store × Node × Interp) :=
  match featureRoot .assertion s i.feature with
  | .error e => .error e
  | .ok u =>
    if domainOk i.domain then
      .ok (s, .mk "EarthModelInterpretation" none none
        (baseKids i.title i.md ++ optLeaf "Domain" i.domain ++ [refNode "InterpretedFeature" u] ++ hodKids i.hod), i)
    else .error .assertion

/-- resqpy/organize/earth_model_interpretation.py:14-127 EarthModelInterpretation -/
def earthModelCls : Cls Interp where
  typ := "EarthModelInterpretation"
  uuid := Interp.uuid
  setUuid i u := { i with uuid := u }
  load s u := (loadInterp .organization s u).map Prod.fst
  eqv s a b := .ok (eqvEarthModel true s a b)
  prep _ i := withTitle i
  write := writeEarthModel

/-- A horizon or geobody boundary interpretation; the latter have no sequence stratigraphy surface.; for `loadHorizon` (horizon_interpretation.py:49-67) -/
structure Horizon extends Interp where
  relations : Option (List String)
  sss : Option String
deriving DecidableEq

/-- resqpy/organize/horizon_interpretation.py:18-19 HorizonInterpretation: valid boundary relations. -/
def validRelations : List String := ["conformable", "unconformable below and above", "unconformable above", "unconformable below"]

/-- resqpy/organize/horizon_interpretation.py:17 HorizonInterpretation: valid sequence stratigraphy surfaces. -/
def validSss : List String := ["flooding", "ravinement", "maximum flooding", "transgressive"]

/-- The text of a node as it is (`node.text`).; for `loadRelations` (horizon_interpretation.py:62-66) -/
def rawText (n : Node) : String :=
  match n.text with
  | some (.str s) => s
  | _ => ""

/-- resqpy/organize/horizon_interpretation.py:62-66 _load_from_xml: boundary relations. -/
def loadRelations (n : Node) : Option (List String) :=
  if (listOfTag n "BoundaryRelation").length = 0 then none else some ((listOfTag n "BoundaryRelation").map rawText)

/-- resqpy/organize/horizon_interpretation.py:49-67 _load_from_xml -/
def loadHorizon (s : Store) (u : Nat) : Res Horizon :=
  match loadInterp .genetic s u with
  | .error e => .error e
  | .ok (i, n) => .ok ⟨i, loadRelations n, findText n "SequenceStratigraphySurface"⟩

/-- `not self.boundary_relation_list`, and the comparison as sets: resqpy/organize/horizon_interpretation.py:93-97 is_equivalent -/
def eqvRelations (a b : Option (List String)) : Bool :=
  let a := a.getD []
  let b := b.getD []
  if a = [] ∧ b = [] then true
  else if a = [] ∨ b = [] then false
  else a.all (fun x => x ∈ b) && b.all (fun x => x ∈ a)

/-- resqpy/organize/horizon_interpretation.py:69-97 is_equivalent -/
def eqvHorizon (check : Bool) (s : Store) (a b : Horizon) : Bool :=
  if a.uuid = b.uuid then true
  else if !eqvFeat? check a.feature b.feature then false
  else if !sameRoots s a.uuid b.uuid then false
  else if a.domain ≠ b.domain ∨ !eqvHod a.hod b.hod ∨ a.sss ≠ b.sss then false
  else if check && !eqvMeta a.md b.md then false
  else eqvRelations a.relations b.relations

/-- resqpy/organize/horizon_interpretation.py:134-139 create_xml: boundary relations. -/
def relationKids (r : Option (List String)) : List Node := (r.getD []).map fun x => leaf "BoundaryRelation" (.str x)

/-- resqpy/organize/horizon_interpretation.py:117-159 create_xml -/
def writeHorizon (s : Store) (h : Horizon) : Res (Store × Node × Horizon) :=
  if !domainOk h.domain then .error .assertion
  else if !((h.relations.getD []).all fun x => x ∈ validRelations) then .error .assertion
  else if h.sss.any fun x => x ∉ validSss then .error .assertion
  else
    match featureRoot .attribute s h.feature with
    | .error e => .error e
    | .ok u =>
      .ok (s, .mk "HorizonInterpretation" none none
        (baseKids h.title h.md ++ optLeaf "Domain" h.domain ++ hodKids h.hod ++ relationKids h.relations ++
          optLeaf "SequenceStratigraphySurface" h.sss ++ [refNode "InterpretedFeature" u]), h)

/-- resqpy/organize/horizon_interpretation.py:12-159 HorizonInterpretation -/
def horizonCls : Cls Horizon where
  typ := "HorizonInterpretation"
  uuid h := h.uuid
  setUuid h u := { h with uuid := u }
  load := loadHorizon
  eqv s a b := .ok (eqvHorizon true s a b)
  prep _ h := (withTitle h.toInterp).map fun i => { h with toInterp := i }
  write := writeHorizon

/-- resqpy/organize/geobody_boundary_interpretation.py:56-73 _load_from_xml -/
def loadGeobodyBoundary (s : Store) (u : Nat) : Res Horizon :=
  match loadInterp .genetic s u with
  | .error e => .error e
  | .ok (i, n) => .ok ⟨i, loadRelations n, none⟩

/-- resqpy/organize/geobody_boundary_interpretation.py:75-102 is_equivalent -/
def eqvGeobodyBoundary (check : Bool) (s : Store) (a b : Horizon) : Bool :=
  if a.uuid = b.uuid then true
  else if !eqvFeat? check a.feature b.feature then false
  else if !sameRoots s a.uuid b.uuid then false
  else if a.domain ≠ b.domain ∨ !eqvHod a.hod b.hod then false
  else if check && !eqvMeta a.md b.md then false
  else eqvRelations a.relations b.relations

/-- resqpy/organize/geobody_boundary_interpretation.py:120-163 create_xml -/
def writeGeobodyBoundary (s : Store) (h : Horizon) : Res (Store × Node × Horizon) :=
  if h.feature = none then .error .assertion
  else if !domainOk h.domain then .error .assertion
  else if !((h.relations.getD []).all fun x => x ∈ validRelations) then .error .assertion
  else
    match featureRoot .attribute s h.feature with
    | .error e => .error e
    | .ok u =>
      .ok (s, .mk "GeobodyBoundaryInterpretation" none none
        (baseKids h.title h.md ++ optLeaf "Domain" h.domain ++ hodKids h.hod ++ relationKids h.relations ++
          [refNode "InterpretedFeature" u]), h)

/-- resqpy/organize/geobody_boundary_interpretation.py:12-163 GeobodyBoundaryInterpretation -/
def geobodyBoundaryCls : Cls Horizon where
  typ := "GeobodyBoundaryInterpretation"
  uuid h := h.uuid
  setUuid h u := { h with uuid := u }
  load := loadGeobodyBoundary
  eqv s a b := .ok (eqvGeobodyBoundary true s a b)
  prep _ h := (withTitle h.toInterp).map fun i => { h with toInterp := i }
  write := writeGeobodyBoundary

/-- A geobody interpretation.; for `loadGeobody` (geobody_interpretation.py:61-73) -/
structure Geobody extends Interp where
  composition : Option String
  implacement : Option String
  shape : Option String
deriving DecidableEq

/-- resqpy/organize/geobody_interpretation.py:17-30 GeobodyInterpretation: valid compositions. -/
def geobodyCompositions : List String :=
  ["intrusive clay", "organic", "intrusive mud", "evaporite salt", "evaporite non salt", "sedimentary siliclastic", "carbonate",
   "magmatic intrusive granitoid", "magmatic intrusive pyroclastic", "magmatic extrusive lava flow", "other chemichal rock",
   "other chemical rock", "sedimentary turbidite"]

/-- resqpy/organize/geobody_interpretation.py:31 GeobodyInterpretation, resqpy/strata/_strata_common.py:10 valid_implacements -/
def validImplacements : List String := ["autochtonous", "allochtonous"]

/-- resqpy/organize/geobody_interpretation.py:32-33 GeobodyInterpretation: valid shapes. -/
def validShapes : List String :=
  ["dyke", "silt", "sill", "dome", "sheeth", "sheet", "diapir", "batholith", "channel", "delta", "dune", "fan", "reef", "wedge"]

/-- resqpy/organize/geobody_interpretation.py:61-73 _load_from_xml: the domain is not read, it stays as the default of the
constructor (resqpy/organize/geobody_interpretation.py:40 __init__). -/
def loadGeobody (s : Store) (u : Nat) : Res Geobody :=
  match loadInterp .geobody s u with
  | .error e => .error e
  | .ok (i, n) =>
    .ok ⟨{ i with domain := some "depth" }, findText n "GeologicUnitComposition", findText n "GeologicUnitMaterialImplacement",
      findText n "Geobody3dShape"⟩

/-- resqpy/organize/geobody_interpretation.py:75-98 is_equivalent -/
def eqvGeobody (check : Bool) (s : Store) (a b : Geobody) : Bool :=
  if a.uuid = b.uuid then true
  else if !eqvFeat? check a.feature b.feature then false
  else if !sameRoots s a.uuid b.uuid then false
  else if check && !eqvMeta a.md b.md then false
  else a.domain == b.domain && eqvHod a.hod b.hod && a.composition == b.composition && a.implacement == b.implacement &&
    a.shape == b.shape

/-- A value which must be one of those listed, if it is there and not empty: `if self.composition: assert …`.; for `writeGeobody` (geobody_interpretation.py:116-170) -/
def okIfAny (l : List String) (t : Option String) : Bool := falsy t || t.any fun x => x ∈ l

/-- A node for a text if it is there and not empty.; for `contactRef` (_binary_contact_interpretation.py:163-178) -/
def truthyLeaf (tag : String) (t : Option String) : List Node := if falsy t then [] else optLeaf tag t

/-- resqpy/organize/geobody_interpretation.py:116-170 create_xml -/
def writeGeobody (s : Store) (g : Geobody) : Res (Store × Node × Geobody) :=
  if g.feature = none then .error .assertion
  else if !domainOk g.domain then .error .assertion
  else if !okIfAny geobodyCompositions g.composition then .error .assertion
  else if !okIfAny validImplacements g.implacement then .error .assertion
  else if !okIfAny validShapes g.shape then .error .assertion
  else
    match featureRoot .attribute s g.feature with
    | .error e => .error e
    | .ok u =>
      .ok (s, .mk "GeobodyInterpretation" none none
        (baseKids g.title g.md ++ optLeaf "Domain" g.domain ++ hodKids g.hod ++
          truthyLeaf "GeologicUnitComposition" g.composition ++ truthyLeaf "GeologicUnitMaterialImplacement" g.implacement ++
          truthyLeaf "Geobody3dShape" g.shape ++ [refNode "InterpretedFeature" u]), g)

/-- resqpy/organize/geobody_interpretation.py:12-170 GeobodyInterpretation -/
def geobodyCls : Cls Geobody where
  typ := "GeobodyInterpretation"
  uuid g := g.uuid
  setUuid g u := { g with uuid := u }
  load := loadGeobody
  eqv s a b := .ok (eqvGeobody true s a b)
  prep _ g := (withTitle g.toInterp).map fun i => { g with toInterp := i }
  write := writeGeobody

/-- A generic feature interpretation.; for `loadGeneric` (generic_interpretation.py:46-52) -/
structure Generic where
  uuid : Nat
  title : Option String
  md : Meta
  featureUuid : Option Nat
  domain : Option String
  hod : Hod
deriving DecidableEq

/-- resqpy/organize/generic_interpretation.py:46-52 _load_from_xml -/
def loadGeneric (s : Store) (u : Nat) : Res Generic :=
  match rootFor s u with
  | none => .error .attribute
  | some n =>
    match refUuid n "InterpretedFeature" with
    | none => .error .assertion
    | some f => .ok ⟨u, citationTitle n, loadMeta n, some f, findText n "Domain", loadHod n⟩

/-- resqpy/organize/generic_interpretation.py:54-71 is_equivalent: the attribute compared on line 67 does not exist. -/
def eqvGeneric (a b : Generic) : Res Bool :=
  if a.uuid = b.uuid then .ok true
  else if a.title ≠ b.title then .ok false
  else if a.featureUuid = none ∨ a.featureUuid ≠ b.featureUuid then .ok false
  else if a.domain ≠ b.domain then .ok false
  else .error .attribute

/-- resqpy/organize/generic_interpretation.py:77-82 create_xml -/
def prepGeneric (s : Store) (g : Generic) : Res Generic :=
  match g.featureUuid with
  | none => .error .assertion
  | some f =>
    match rootFor s f with
    | none => .error .assertion
    | some n => .ok (if falsy g.title then { g with title := citationTitle n } else g)

/-- resqpy/organize/generic_interpretation.py:87-107 create_xml -/
def writeGeneric (s : Store) (g : Generic) : Res (Store × Node × Generic) :=
  if !domainOk g.domain then .error .assertion
  else .ok (s, .mk "GenericFeatureInterpretation" none none
    (baseKids g.title g.md ++ optLeaf "Domain" g.domain ++ optRef "InterpretedFeature" g.featureUuid ++ hodKids g.hod), g)

/-- resqpy/organize/generic_interpretation.py:10-107 GenericInterpretation -/
def genericCls : Cls Generic where
  typ := "GenericFeatureInterpretation"
  uuid := Generic.uuid
  setUuid g u := { g with uuid := u }
  load := loadGeneric
  eqv _ a b := eqvGeneric a b
  prep := prepGeneric
  write := writeGeneric

/-- A wellbore interpretation.; for `loadWellbore` (wellbore_interpretation.py:56-66) -/
structure Wellbore where
  uuid : Nat
  title : Option String
  md : Meta
  domain : Option String
  feature : Option Feat
  drilled : Option Bool
deriving DecidableEq

/-- resqpy/organize/wellbore_interpretation.py:56-66 _load_from_xml (a missing reference is accepted) -/
def loadWellbore (s : Store) (u : Nat) : Res Wellbore :=
  match rootFor s u with
  | none => .error .attribute
  | some n =>
    match (if (findTag n "InterpretedFeature").isSome then loadFeature .wellbore s n else .ok none) with
    | .error e => .error e
    | .ok f => .ok ⟨u, citationTitle n, loadMeta n, findText n "Domain", f, findBool n "IsDrilled"⟩

/-- resqpy/organize/wellbore_interpretation.py:90-96 is_equivalent -/
def sameRootsDomain (s : Store) (a b : Wellbore) : Bool :=
  match rootFor s a.uuid, rootFor s b.uuid with
  | some x, some y => citationTitle x == citationTitle y && a.domain == b.domain
  | none, none => true
  | _, _ => false

/-- resqpy/organize/wellbore_interpretation.py:77-99 is_equivalent -/
def eqvWellbore (check : Bool) (s : Store) (a b : Wellbore) : Bool :=
  if a.uuid = b.uuid then true
  else if !eqvFeat? check a.feature b.feature then false
  else if !sameRootsDomain s a b then false
  else if check && !eqvMeta a.md b.md then false
  else a.title == b.title && a.drilled == b.drilled

/-- resqpy/organize/wellbore_interpretation.py:112-113 create_xml -/
def prepWellbore (w : Wellbore) : Res Wellbore :=
  if falsy w.title then
    match w.feature with
    | none => .error .attribute
    | some f => .ok { w with title := f.title }
  else .ok w

/-- resqpy/organize/wellbore_interpretation.py:119-153 create_xml: not drilled if not known. -/
def writeWellbore (s : Store) (w : Wellbore) : Res (Store × Node × Wellbore) :=
  if !domainOk w.domain then .error .assertion
  else
    match featureRoot .attribute s w.feature with
    | .error e => .error e
    | .ok u =>
      .ok (s, .mk "WellboreInterpretation" none none
        (baseKids w.title w.md ++ [leaf "IsDrilled" (.bool (w.drilled.getD false))] ++ optLeaf "Domain" w.domain ++
          [refNode "InterpretedFeature" u]), { w with drilled := some (w.drilled.getD false) })

/-- resqpy/organize/wellbore_interpretation.py:12-153 WellboreInterpretation -/
def wellboreCls : Cls Wellbore where
  typ := "WellboreInterpretation"
  uuid := Wellbore.uuid
  setUuid w u := { w with uuid := u }
  load := loadWellbore
  eqv s a b := .ok (eqvWellbore true s a b)
  prep _ w := prepWellbore w
  write := writeWellbore

/-- A fault interpretation.; for `loadFault` (fault_interpretation.py:77-102) -/
structure Fault extends Interp where
  normal : Option Bool
  listric : Option Bool
  throw : Option ℚ
  azimuth : Option ℚ
  dip : Option ℚ
  throws : Option (List (String × Hod))
deriving DecidableEq

/-- resqpy/organize/fault_interpretation.py:98-102 _load_from_xml: the kinds of throw of one node. -/
def loadThrow (t : Node) : List (String × Hod) := (listOfTag t "Throw").map fun k => (rawText k, loadHod t)

/-- resqpy/organize/fault_interpretation.py:95-102 _load_from_xml -/
def loadThrows (n : Node) : Option (List (String × Hod)) :=
  if (listOfTag n "ThrowInterpretation").length = 0 then none else some ((listOfTag n "ThrowInterpretation").flatMap loadThrow)

/-- resqpy/organize/fault_interpretation.py:77-102 _load_from_xml: nothing but the domain is read if the feature is missing. -/
def loadFault (s : Store) (u : Nat) : Res Fault :=
  match loadInterp .tectonic s u with
  | .error e => .error e
  | .ok (i, n) =>
    if i.feature = none then .ok ⟨{ i with hod := (none, none) }, none, none, none, none, none, none⟩
    else .ok ⟨i, some (findBool n "IsListric" == none), findBool n "IsListric", findNum n "MaximumThrow", findNum n "MeanAzimuth",
      findNum n "MeanDip", loadThrows n⟩

/-- `math.isclose`; for `eqvFault` (fault_interpretation.py:104-154) -/
def isclose (rel abs a b : ℚ) : Bool := decide (|a - b| ≤ max (rel * max |a| |b|) abs)

/-- Two numbers which may be missing, both or neither, and which are close.; for `eqvFault` (fault_interpretation.py:104-154) -/
def close? (rel abs : ℚ) : Option ℚ → Option ℚ → Bool
  | some a, some b => isclose rel abs a b
  | none, none => true
  | _, _ => false

/-- resqpy/organize/fault_interpretation.py:143-154 is_equivalent: the throws. -/
def eqvThrows (a b : Option (List (String × Hod))) : Bool :=
  let a := a.getD []
  let b := b.getD []
  if a = [] ∧ b = [] then true
  else if a = [] ∨ b = [] then false
  else if a.length ≠ b.length then false
  else (a.zip b).all fun p => p.1.1 == p.2.1 && eqvHod p.1.2 p.2.2

/-- resqpy/organize/fault_interpretation.py:104-154 is_equivalent -/
def eqvFault (check : Bool) (a b : Fault) : Bool :=
  if a.uuid = b.uuid then true
  else if a.title ≠ b.title then false
  else if !eqvFeat? check a.feature b.feature then false
  else if !close? (1 / 1000) 0 a.throw b.throw then false
  else if !close? (1 / 1000000000) (1 / 2) a.azimuth b.azimuth then false
  else if !close? (1 / 1000000000) (1 / 2) a.dip b.dip then false
  else if !eqvHod a.hod b.hod ∨ a.normal ≠ b.normal ∨ a.domain ≠ b.domain ∨ a.listric ≠ b.listric then false
  else if check && !eqvMeta a.md b.md then false
  else eqvThrows a.throws b.throws

/-- `(str(base_chrono_uuid), str(top_chrono_uuid))`; for `groupStep` (fault_interpretation.py:227-236) -/
def hodKey (h : Hod) : Option Nat × Option Nat := (h.1.map UV.num, h.2.map UV.num)

/-- The groups of throws written so far, each with the pair it was begun with, and the pair of the last group.; for `groupStep` (fault_interpretation.py:227-236) -/
abbrev Groups := List (Hod × List String) × Option (Option Nat × Option Nat)

/-- Adding to the last group.; for `groupStep` (fault_interpretation.py:227-236) -/
def addToLast (k : String) : List (Hod × List String) → List (Hod × List String)
  | [] => []
  | [(h, ks)] => [(h, ks ++ [k])]
  | g :: gs => g :: addToLast k gs

/-- resqpy/organize/fault_interpretation.py:227-236 create_xml: a new node when the pair is not as for the throw before. -/
def groupStep (g : Groups) (t : String × Hod) : Groups :=
  if some (hodKey t.2) ≠ g.2 then (g.1 ++ [(t.2, [t.1])], some (hodKey t.2)) else (addToLast t.1 g.1, g.2)

/-- The node of a group.; for `throwKids` (fault_interpretation.py:224-236) -/
def groupNode (g : Hod × List String) : Node :=
  .mk "ThrowInterpretation" none none (hodKids g.1 ++ g.2.map fun k => leaf "Throw" (.str k))

/-- resqpy/organize/fault_interpretation.py:224-236 create_xml -/
def throwKids (t : Option (List (String × Hod))) : List Node := ((t.getD []).foldl groupStep ([], none)).1.map groupNode

/-- A node for a number which may be missing.; for `writeFault` (fault_interpretation.py:179-244) -/
def optNum (tag : String) (q : Option ℚ) : List Node := (q.map fun q => leaf tag (.num q)).toList

/-- A node for a boolean which may be missing.; for `writeFault` (fault_interpretation.py:179-244) -/
def optBool (tag : String) (b : Option Bool) : List Node := (b.map fun b => leaf tag (.bool b)).toList

/-- resqpy/organize/fault_interpretation.py:219-222 create_xml: the node is there if there is a dip, and has the azimuth in it
(`None` as text if there is none, which is read as no number). -/
def dipKids (f : Fault) : List Node :=
  match f.dip with
  | none => []
  | some _ => [.mk "MeanDip" none (some ((f.azimuth.map Txt.num).getD (.str "None"))) []]

/-- resqpy/organize/fault_interpretation.py:167 create_xml; a title missing is not set, as the variable on lines 168-174 is not used. -/
def prepFault (f : Fault) : Res Fault := if f.normal = some (f.listric == none) then .ok f else .error .assertion

/-- resqpy/organize/fault_interpretation.py:179-244 create_xml -/
def writeFault (s : Store) (f : Fault) : Res (Store × Node × Fault) :=
  match featureRoot .assertion s f.feature with
  | .error e => .error e
  | .ok u =>
    if !domainOk f.domain then .error .assertion
    else
      .ok (s, .mk "FaultInterpretation" none none
        (baseKids f.title f.md ++ optLeaf "Domain" f.domain ++ [refNode "InterpretedFeature" u] ++ hodKids f.hod ++
          optBool "IsListric" f.listric ++ optNum "MaximumThrow" f.throw ++
          optNum "MeanAzimuth" f.azimuth ++ dipKids f ++ throwKids f.throws), f)

/-- resqpy/organize/fault_interpretation.py:14-244 FaultInterpretation -/
def faultCls : Cls Fault where
  typ := "FaultInterpretation"
  uuid f := f.uuid
  setUuid f u := { f with uuid := u }
  load := loadFault
  eqv _ a b := .ok (eqvFault true a b)
  prep _ f := prepFault f
  write := writeFault

/-- A geologic unit interpretation.; for `checkUnit` (_geologic_unit_interpretation.py:76-82) -/
structure GeoUnit extends Interp where
  composition : Option String
  implacement : Option String
deriving DecidableEq

/-- resqpy/strata/_strata_common.py:4-8 valid_compositions: two of them with a space at the end. -/
def unitCompositions : List String :=
  ["intrusive clay ", "intrusive clay", "organic", "intrusive mud ", "intrusive mud", "evaporite salt", "evaporite non salt",
   "sedimentary siliclastic", "carbonate", "magmatic intrusive granitoid", "magmatic intrusive pyroclastic",
   "magmatic extrusive lava flow", "other chemichal rock", "sedimentary turbidite"]

/-- resqpy/strata/_geologic_unit_interpretation.py:76-82 __init__: checks, and the space removed. -/
def checkUnit (g : GeoUnit) : Res GeoUnit :=
  if !okIfAny unitCompositions g.composition then .error .assertion
  else if !okIfAny validImplacements g.implacement then .error .assertion
  else .ok (if falsy g.composition then g else { g with composition := g.composition.map strip })

/-- The feature of a geologic unit when loading: resqpy/strata/_geologic_unit_interpretation.py:91-94 _load_from_xml,
resqpy/strata/_stratigraphic_unit_interpretation.py:108-112 _load_from_xml (the part is taken to be there) -/
def loadUnitFeature (c : FC) (s : Store) (n : Node) : Res (Option Feat) :=
  match refUuid n "InterpretedFeature" with
  | none => .ok none
  | some u => (loadFeat c s u).map some

/-- resqpy/strata/_geologic_unit_interpretation.py:84-97 _load_from_xml, before the checks of the constructor; for the class of
features given. -/
def loadUnitRaw (c : FC) (s : Store) (u : Nat) : Res (GeoUnit × Node) :=
  match rootFor s u with
  | none => .error .attribute
  | some n =>
    match loadUnitFeature c s n with
    | .error e => .error e
    | .ok f =>
      .ok (⟨⟨u, citationTitle n, loadMeta n, findText n "Domain", f, loadHod n⟩, findText n "GeologicUnitComposition",
        findText n "GeologicUnitMaterialImplacement"⟩, n)

/-- resqpy/strata/_geologic_unit_interpretation.py:68-97 __init__, _load_from_xml -/
def loadUnit (s : Store) (u : Nat) : Res GeoUnit :=
  match loadUnitRaw .geologicUnit s u with
  | .error e => .error e
  | .ok (g, _) => checkUnit g

/-- resqpy/strata/_geologic_unit_interpretation.py:99-131 is_equivalent (the features are compared with their metadata always) -/
def eqvUnit (check : Bool) (s : Store) (a b : GeoUnit) : Bool :=
  if a.uuid = b.uuid then true
  else if !eqvFeat? true a.feature b.feature then false
  else if !sameRoots s a.uuid b.uuid then false
  else if check && !eqvMeta a.md b.md then false
  else a.composition == b.composition && a.implacement == b.implacement && a.domain == b.domain && eqvHod a.hod b.hod

/-- resqpy/strata/_geologic_unit_interpretation.py:172-179 create_xml: the composition, with a space for two of them. -/
def compositionText (c : String) : String := if c ++ " " ∈ unitCompositions then c ++ " " else c

/-- resqpy/strata/_geologic_unit_interpretation.py:153-193 create_xml: the children of the node. -/
def unitKids (s : Store) (g : GeoUnit) : Res (List Node) :=
  match featureRoot .assertion s g.feature with
  | .error e => .error e
  | .ok u =>
    if !domainOk g.domain then .error .assertion
    else if g.composition.any fun x => x ∉ unitCompositions then .error .assertion
    else if g.implacement.any fun x => x ∉ validImplacements then .error .assertion
    else
      .ok (baseKids g.title g.md ++ optLeaf "Domain" g.domain ++ [refNode "InterpretedFeature" u] ++ hodKids g.hod ++
        optLeaf "GeologicUnitComposition" (g.composition.map compositionText) ++
        optLeaf "GeologicUnitMaterialImplacement" g.implacement)

/-- resqpy/strata/_geologic_unit_interpretation.py:153-193 create_xml -/
def writeUnit (s : Store) (g : GeoUnit) : Res (Store × Node × GeoUnit) :=
  (unitKids s g).map fun k => (s, .mk "GeologicUnitInterpretation" none none k, g)

/-- resqpy/strata/_geologic_unit_interpretation.py:18-193 GeologicUnitInterpretation -/
def unitCls : Cls GeoUnit where
  typ := "GeologicUnitInterpretation"
  uuid g := g.uuid
  setUuid g u := { g with uuid := u }
  load := loadUnit
  eqv s a b := .ok (eqvUnit true s a b)
  prep _ g := .ok g
  write := writeUnit

/-- A stratigraphic unit interpretation.; for `setContacts` (_stratigraphic_column_rank.py:116-152) -/
structure StratUnit extends GeoUnit where
  deposition : Option String
  minThick : Option ℚ
  maxThick : Option ℚ
  uom : Option String
deriving DecidableEq

/-- resqpy/strata/_strata_common.py:14-16 valid_deposition_modes -/
def validDepositions : List String :=
  ["proportional between top and bottom", "parallel to bottom", "parallel to top", "parallel to another boundary"]

/-- A number with its unit.; for `writeStrat` (_stratigraphic_unit_interpretation.py:165-193) -/
def numUom (tag : String) (u : Option String) (q : Option ℚ) : List Node :=
  (q.map fun q => Node.mk tag u (some (.num q)) []).toList

/-- resqpy/strata/_stratigraphic_unit_interpretation.py:92-95 __init__, 172, 178-179 create_xml: `lu` are the units of length. -/
def checkStrat (lu : String → Bool) (x : StratUnit) : Bool :=
  (!x.deposition.any fun d => d ∉ validDepositions) &&
    ((x.minThick == none && x.maxThick == none) || x.uom.any lu)

/-- resqpy/strata/_stratigraphic_unit_interpretation.py:115-127 _load_from_xml: one of the thicknesses, and the unit so far. -/
def loadThick (n : Node) (tag : String) (uom : Option String) : Res (Option ℚ × Option String) :=
  match findTag n tag with
  | none => .ok (none, uom)
  | some t =>
    match nodeNum t with
    | none => .error .value
    | some q =>
      match t.uom with
      | none => .error .key
      | some u =>
        match uom with
        | none => .ok (some q, some u)
        | some v => if u = v then .ok (some q, some v) else .error .assertion

/-- resqpy/strata/_stratigraphic_unit_interpretation.py:80-127 __init__, _load_from_xml -/
def loadStrat (lu : String → Bool) (s : Store) (u : Nat) : Res StratUnit :=
  match loadUnitRaw .stratUnit s u with
  | .error e => .error e
  | .ok (g, n) =>
    match loadThick n "MinThickness" none with
    | .error e => .error e
    | .ok (lo, uom) =>
      match loadThick n "MaxThickness" uom with
      | .error e => .error e
      | .ok (hi, uom) =>
        match checkUnit g with
        | .error e => .error e
        | .ok g =>
          let x : StratUnit := ⟨g, findText n "DepositionMode", lo, hi, uom⟩
          if checkStrat lu x then .ok x else .error .assertion

/-- resqpy/strata/_stratigraphic_unit_interpretation.py:129-145 is_equivalent -/
def eqvStrat (s : Store) (a b : StratUnit) : Bool :=
  if !eqvUnit true s a.toGeoUnit b.toGeoUnit then false
  else if a.deposition ≠ none ∧ b.deposition ≠ none then a.deposition == b.deposition
  else true

/-- resqpy/strata/_stratigraphic_unit_interpretation.py:165-193 create_xml -/
def writeStrat (lu : String → Bool) (s : Store) (x : StratUnit) : Res (Store × Node × StratUnit) :=
  match unitKids s x.toGeoUnit with
  | .error e => .error e
  | .ok k =>
    if !checkStrat lu x then .error .assertion
    else .ok (s, .mk "StratigraphicUnitInterpretation" none none
      (k ++ optLeaf "DepositionMode" x.deposition ++ numUom "MinThickness" x.uom x.minThick ++
        numUom "MaxThickness" x.uom x.maxThick), x)

/-- resqpy/strata/_stratigraphic_unit_interpretation.py:19-193 StratigraphicUnitInterpretation -/
def stratCls (lu : String → Bool) : Cls StratUnit where
  typ := "StratigraphicUnitInterpretation"
  uuid x := x.uuid
  setUuid x u := { x with uuid := u }
  load := loadStrat lu
  eqv s a b := .ok (eqvStrat s a b)
  prep _ x := .ok x
  write := writeStrat lu

end Verif.Organize
