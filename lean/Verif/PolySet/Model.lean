import Verif.Py.Basic
import Verif.Lines.Model
import Mathlib.Data.List.Dedup

/-!
# Sets of polylines

Model of resqpy/lines/_polyline_set.py: combining polylines into the arrays which are stored, storing the flags of closed
polylines compactly, separating the arrays into polylines again, and the text formats irap and charisma.

Simplifications throughout: a point is an element of any type `P`; the comparison `np.all(np.isclose(a, b))` of two points is a
given relation `near`; titles, interpretations and metadata are left out.
-/

namespace Verif.PolySet

open Verif.Py

/-- a polyline: its uuid, crs, points in order, and whether it is closed (`_polyline.py`:66-85, attributes used here) -/
structure Poly (C P : Type) where
  uuid : Nat
  crs : C
  coords : List P
  closed : Bool
  deriving DecidableEq, Repr

variable {C P : Type}

/-- what `combine_polylines` sets: crs, coordinates of all the polylines, numbers of points and closed flags
(_polyline_set.py:504-535) -/
structure Combined (C P : Type) where
  crs : C
  coords : List P
  counts : List Nat
  closed : List Bool
  deriving DecidableEq, Repr

/-- _polyline_set.py:520-525: the coordinates of a polyline in the crs of the first one -/
def shifted (equiv : C → C → Bool) (conv : C → C → List P → List P) (master : C) (p : Poly C P) : List P :=
  if ¬ equiv p.crs master then conv p.crs master p.coords else p.coords

/-- _polyline_set.py:514-528: one polyline in the loop; `first` is `polylines[0]`, compared with by `==`, which for polylines
compares the uuids (olio/base.py:186-193).  A simplification is that a conversion never raises. -/
def combineStep (equiv : C → C → Bool) (conv : C → C → List P → List P) (first : Poly C P) (a : Combined C P) (p : Poly C P) :
    Combined C P :=
  if p.uuid = first.uuid then
    ⟨p.crs, p.coords, a.counts ++ [p.coords.length], a.closed ++ [p.closed]⟩
  else
    ⟨a.crs, a.coords ++ shifted equiv conv a.crs p, a.counts ++ [p.coords.length], a.closed ++ [p.closed]⟩

/-- the polyline object after the loop has dealt with it: the conversion of coordinates is made in situ (crs.py:351-374), while
the crs of the polyline is left as it is; for `combine` (_polyline_set.py:520-525) -/
def afterCombine (equiv : C → C → Bool) (conv : C → C → List P → List P) (first p : Poly C P) : Poly C P :=
  if p.uuid = first.uuid then p else { p with coords := shifted equiv conv first.crs p }

/-- _polyline_set.py:504-535 `combine_polylines`, on a set which has no coordinates yet: the arrays, and the polylines as they
are left.  With no polylines at all `len(self.coordinates)` is the length of `None`. -/
def combine (equiv : C → C → Bool) (conv : C → C → List P → List P) (polys : List (Poly C P)) :
    Res (Combined C P × List (Poly C P)) :=
  match polys with
  | [] => .error .type
  | first :: _ =>
    let a := polys.foldl (combineStep equiv conv first) ⟨first.crs, [], [], []⟩
    if a.closed.length = a.counts.length ∧ a.counts.sum = a.coords.length then
      .ok (a, polys.map (afterCombine equiv conv first))
    else .error .assertion

/-- _polyline_set.py:86-104: making a set from polylines: all must have one crs, and the one given, if any -/
def fromPolylines [DecidableEq C] (equiv : C → C → Bool) (conv : C → C → List P → List P) (crs : Option C)
    (polys : List (Poly C P)) : Res (Combined C P × List (Poly C P)) :=
  if (crs.toList ++ polys.map (·.crs)).dedup.length = 1 then combine equiv conv polys
  else .error .assertion

/-! ## The flags of closed polylines -/

/-- what `bool_array_format` sets (_polyline_set.py:537-563): whether the flags are mixed, the value of all or most of them, and
the places of the others -/
structure Format where
  notConstant : Bool
  value : Bool
  indices : List Nat
  deriving DecidableEq, Repr

/-- _polyline_set.py:555-557, 560-562: the places of the flags with a given value -/
def placesOf (b : Bool) (closed : List Bool) : List Nat :=
  (closed.zipIdx.filter (fun q => q.1 = b)).map (·.2)

/-- _polyline_set.py:537-563 `bool_array_format` -/
def boolArrayFormat (closed : List Bool) : Format :=
  if closed.all (· = true) then ⟨false, true, []⟩
  else if ¬ closed.any (· = true) then ⟨false, false, []⟩
  else if closed.count true > closed.length / 2 then ⟨true, true, placesOf false closed⟩
  else ⟨true, false, placesOf true closed⟩

/-- the xml node for the flags of closed polylines (_polyline_set.py:291-333): the two flavours which are written, others being
possible in files from elsewhere -/
inductive ClosedNode where
  | constant (value : String) (count : Nat)
  | fromIndex (indexIsTrue : String) (count : Nat) (indices : List Int)
  | other
  deriving DecidableEq, Repr

/-- `str(b).lower()` of a boolean, as written to xml; for `closedNode` (_polyline_set.py:300, 329) -/
def boolText (b : Bool) : String := if b then "true" else "false"

/-- _polyline_set.py:291-333: the node written, along with the array of indices written by `write_hdf5` (403-404);
`n` is the number of polylines, `len(self.count_perpol)` -/
def closedNode (f : Format) (n : Nat) : ClosedNode :=
  if f.notConstant then .fromIndex (boolText (! f.value)) n (f.indices.map (fun (i : Nat) => (i : Int)))
  else .constant (boolText f.value) n

/-- xml_et.py:545-555 `bool_from_text`.  A simplification is that the text has no surrounding white space or capitals. -/
def boolFromText (s : String) : Option Bool :=
  if s = "true" then some true else if s = "false" then some false else none

/-- assignment of one value to the places of an array given by indices, in numpy's sense; for `getBoolArray`
(_polyline_set.py:432) -/
def setPlaces (b : Bool) (out : List Bool) : List Int → Res (List Bool)
  | [] => .ok out
  | i :: is =>
    if 0 ≤ i ∧ i < out.length then setPlaces b (out.set i.toNat b) is
    else if i < 0 ∧ 0 ≤ i + out.length then setPlaces b (out.set (i + out.length).toNat b) is
    else .error .index

/-- _polyline_set.py:407-434 `get_bool_array`.  An unreadable boolean is `None`, which is false as a value and true when
negated. -/
def getBoolArray : ClosedNode → Res (List Bool)
  | .constant value count => .ok (List.replicate count ((boolFromText value).getD false))
  | .fromIndex istrue count indices =>
    let b := (boolFromText istrue).getD false
    setPlaces b (List.replicate count (! b)) indices
  | .other => .error .value

/-! ## Separating -/

/-- a new polyline made from coordinates (_polyline.py:85-98 of `__init__`): at least two points are needed.  A simplification is
that the uuid, which is new, is given as zero. -/
def newPoly (crs : C) (coords : List P) (closed : Bool) : Res (Poly C P) :=
  if coords.length > 1 then .ok ⟨0, crs, coords, closed⟩ else .error .assertion

/-- _polyline_set.py:485-500: one polyline from its part of the coordinates and the flag, if there is an array of flags -/
def separateOne (near : P → P → Bool) (crs : C) (closed : Option Bool) (subset : List P) : Res (Poly C P) :=
  match subset.head?, subset.getLast? with
  | some a, some z =>
    let duplicated := near a z && decide (subset.length > 2)
    let isclosed := closed.getD duplicated
    newPoly crs (if isclosed && duplicated then subset.dropLast else subset) isclosed
  | _, _ => .error .index

/-- _polyline_set.py:478-502: the loop over the polylines.  `rest` is the coordinates from `count` on.  For the last polyline one
more point is taken, if there is one.  `flags` are those not yet used, `none` if there is no array of flags. -/
def separate (near : P → P → Bool) (crs : C) : Option (List Bool) → List Nat → List P → Res (List (Poly C P))
  | _, [], _ => .ok []
  | flags, n :: counts, rest =>
    let subset := if counts ≠ [] then rest.take n else rest.take (n + 1)
    match flags with
    | some [] => .error .index
    | some (b :: flags) => do
      let p ← separateOne near crs (some b) subset
      let ps ← separate near crs (some flags) counts (rest.drop n)
      .ok (p :: ps)
    | none => do
      let p ← separateOne near crs none subset
      let ps ← separate near crs none counts (rest.drop n)
      .ok (p :: ps)

/-! ## Storing and loading -/

/-- a `LinePatch` with its arrays: crs, flags, numbers of points and coordinates (_polyline_set.py:280-363 and 400-405) -/
structure Patch (C P : Type) where
  crs : C
  closed : ClosedNode
  counts : List Nat
  coords : List P

/-- `write_hdf5` followed by `create_xml`: the one patch written (_polyline_set.py:238-405).  A simplification is that the crs is
written and read as it is. -/
def store (equiv : C → C → Bool) (conv : C → C → List P → List P) (polys : List (Poly C P)) : Res (Patch C P) := do
  let (a, _) ← combine equiv conv polys
  .ok ⟨a.crs, closedNode (boolArrayFormat a.closed) a.counts.length, a.counts, a.coords⟩

/-- the attributes of a set which are used while it is loaded: crs, the arrays once they are loaded, and the polylines and flags so
far (_polyline_set.py:115-166) -/
structure Loading (C P : Type) where
  crs : Option C
  counts : Option (List Nat)
  coords : Option (List P)
  indices : Option (List Int)
  polys : List (Poly C P)
  closed : List Bool

/-- `load_hdf5_array` for an attribute of the set (lines/_common.py:59-77): an attribute which holds an array already keeps it
(model/_hdf5.py:214-222) -/
def cached {α : Type} (held : Option α) (stored : α) : α := held.getD stored

/-- the flags node with its indices as loaded, through the attribute `indices_arr` of the set (_polyline_set.py:429) -/
def cachedNode (held : Option (List Int)) : ClosedNode → ClosedNode
  | .fromIndex t n is => .fromIndex t n (cached held is)
  | c => c

/-- the value of the attribute `indices_arr` afterwards; for `loadPatch` (_polyline_set.py:429) -/
def cacheIndices (held : Option (List Int)) : ClosedNode → Option (List Int)
  | .fromIndex _ _ is => some (cached held is)
  | _ => held

/-- _polyline_set.py:123-164: one patch of the loop -/
def loadPatch [DecidableEq C] (near : P → P → Bool) (s : Loading C P) (p : Patch C P) : Res (Loading C P) := do
  if s.crs.any (· ≠ p.crs) then .error .assertion else
  let closed ← getBoolArray (cachedNode s.indices p.closed)
  let counts := cached s.counts p.counts
  let coords := cached s.coords p.coords
  if counts.length ≠ closed.length then .error .assertion else
  if counts.sum ≠ coords.length then .error .assertion else
  let subpolys ← separate near p.crs (some closed) counts coords
  .ok ⟨some p.crs, some counts, some coords, cacheIndices s.indices p.closed, s.polys ++ subpolys, s.closed ++ closed⟩

/-- _polyline_set.py:115-166 `_load_from_xml`: the polylines of the set.  A simplification is that an interpretation is left
out. -/
def load [DecidableEq C] (near : P → P → Bool) (patches : List (Patch C P)) : Res (List (Poly C P)) := do
  let s ← patches.foldlM (loadPatch near) ⟨none, none, none, none, [], []⟩
  .ok s.polys

/-! ## Charisma -/

/-- _polyline_set.py:597-613 `convert_to_charisma`: the points in the order written, each with the number of its polyline.  A
simplification is that a line of the file is given as the words used on reading: the point and the last word. -/
def toCharisma (polys : List (Poly C P)) : List (P × Nat) :=
  polys.zipIdx.flatMap (fun q => q.1.coords.map (fun c => (c, q.2 + 1)))

/-- the variables of the loop over the lines of a file; for `charismaStep` (_polyline_set.py:194-216) -/
structure Sticks (P S : Type) where
  coords : List P
  counts : List Nat
  stick : S
  count : Nat
  deriving DecidableEq, Repr

/-- _polyline_set.py:205-216: a line of the file other than the first; `last` is whether it is the last one -/
def charismaStep {S : Type} [DecidableEq S] (s : Sticks P S) (last : Bool) (line : P × S) : Sticks P S :=
  let coords := s.coords ++ [line.1]
  let count := s.count + 1
  if s.stick ≠ line.2 ∨ last then
    if count ≤ 2 ∧ s.stick ≠ line.2 then
      ⟨coords.eraseIdx (coords.length - 2), s.counts, line.2, 1⟩
    else ⟨coords, s.counts ++ [count - 1], line.2, 1⟩
  else ⟨coords, s.counts, s.stick, count⟩

/-- _polyline_set.py:198-216: the lines after the first one -/
def charismaLoop {S : Type} [DecidableEq S] : Sticks P S → List (P × S) → Sticks P S
  | s, [] => s
  | s, l :: ls => charismaLoop (charismaStep s ls.isEmpty l) ls

/-- _polyline_set.py:191-221 `_set_from_charisma`: the polylines made.  The flags are all false.  With no lines at all the
coordinates are `None`, which are not used as there are no counts. -/
def fromCharisma {S : Type} [DecidableEq S] (near : P → P → Bool) (crs : C) (lines : List (P × S)) :
    Res (List (Poly C P)) :=
  match lines with
  | [] => .ok []
  | l :: ls =>
    let s := charismaLoop ⟨[l.1], [], l.2, 1⟩ ls
    separate near crs (some (List.replicate s.counts.length false)) s.counts s.coords

/-! ## Irap -/

/-- _polyline_set.py:589-594 the loop of `convert_to_irap`: the points written, with the marker `eol` after each polyline;
the first polyline, or one equal to it, sets the coordinates anew -/
def irapStep (eol : P) (first : Poly C P) (out : List P) (p : Poly C P) : List P :=
  (if p.uuid = first.uuid then p.coords else out ++ p.coords) ++ [eol]

/-- _polyline_set.py:579-595 `convert_to_irap`: without any polylines there is nothing to save -/
def toIrap (eol : P) : List (Poly C P) → Res (List P)
  | [] => .error .unbound
  | first :: rest => .ok ((first :: rest).foldl (irapStep eol first) [])

/-- the variables of the loop over the lines read; for `irapStepIn` (_polyline_set.py:170-184) -/
structure Irap (P : Type) where
  coords : Option (List P)
  counts : List Nat
  closed : List Bool

/-- _polyline_set.py:175-184: one line read, with its place `i`; lines of one point are passed over; `close` is `vu.isclose`
of the two ends -/
def irapStepIn (close : P → P → Bool) (s : Irap P) (q : List P × Nat) : Res (Irap P) :=
  if q.1.length > 1 then
    match q.1.head?, q.1.getLast? with
    | some a, some z =>
      let counts := s.counts ++ [q.1.length]
      let closed := s.closed ++ [close a z]
      if q.2 = 0 then .ok ⟨some q.1, counts, closed⟩
      else match s.coords with
        | none => .error .value
        | some c => .ok ⟨some (c ++ q.1), counts, closed⟩
    | _, _ => .error .index
  else .ok s

/-- _polyline_set.py:168-189 `_set_from_irap`, on the lines returned by `read_lines` -/
def fromIrap (near close : P → P → Bool) (crs : C) (lines : List (List P)) : Res (List (Poly C P)) := do
  let s ← lines.zipIdx.foldlM (irapStepIn close) ⟨none, [], []⟩
  separate near crs (some s.closed) s.counts (s.coords.getD [])

end Verif.PolySet
