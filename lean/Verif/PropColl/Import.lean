import Verif.PropColl.Mask
import Verif.PropColl.Model
import Verif.Hdf5.Model

/-!
# Model: order of faces and column edges; arrays of the imported list; properties similar to another

`resqpy/property/property_collection.py:2044-2099, 2271-2292, 2370-2402, 2461-2480, 2491-2502`,
`property_common.py:656-673`, `grid_property_collection.py:52-58`.
-/

namespace Verif.PropColl
open Verif.Py

/-! ### faces and edges -/

/-- grid_property_collection.py:55 `face_index_map` -/
def faceOf (axis polarity : Nat) : Nat :=
  match axis, polarity with
  | 0, 0 => 0 | 0, _ => 1 | 1, 0 => 2 | 1, _ => 4 | _, 0 => 5 | _, _ => 3

/-- grid_property_collection.py:58 `face_index_inverse_map` -/
def axisOf (face : Nat) : Nat × Nat :=
  match face with
  | 0 => (0, 0) | 1 => (0, 1) | 2 => (1, 0) | 3 => (2, 1) | 4 => (1, 1) | _ => (2, 0)

/-- property_collection.py:2061-2070 `combobulated_face_array`; an index that is too short is left alone -/
def combobulated {α : Type} (a : Arr α) : Res (Arr α) :=
  match a.shape.getLast? with
  | none => .error .index
  | some n =>
    if n = 6 then
      .ok { shape := a.shape.dropLast ++ [3, 2]
            elem := fun i =>
              match i.reverse with
              | p :: x :: lead => a.elem (lead.reverse ++ [faceOf x p])
              | _ => a.elem i }
    else .error .assertion

/-- property_collection.py:2090-2099 `discombobulated_face_array` -/
def discombobulated {α : Type} (a : Arr α) : Res (Arr α) :=
  match a.shape.reverse with
  | 2 :: 3 :: lead =>
    .ok { shape := lead.reverse ++ [6]
          elem := fun i =>
            match i.reverse with
            | f :: l => a.elem (l.reverse ++ [(axisOf f).1, (axisOf f).2])
            | _ => a.elem i }
  | _ => .error .assertion

/-- property_common.py:656-663 `reformat_column_edges_to_resqml_format`; the array has shape (nj, ni, 2, 2) -/
def edgesTo {α : Type} (a : Nat → Nat → Nat → Nat → α) : Nat → Nat → Nat → α := fun j i e =>
  match e with
  | 0 => a j i 1 0
  | 1 => a j i 0 1
  | 2 => a j i 1 1
  | _ => a j i 0 0

/-- property_common.py:666-673 `reformat_column_edges_from_resqml_format`; the array has shape (nj, ni, 4) -/
def edgesFrom {α : Type} (a : Nat → Nat → Nat → α) : Nat → Nat → Nat → Nat → α := fun j i x p =>
  match x, p with
  | 0, 0 => a j i 3
  | 0, _ => a j i 1
  | _, 0 => a j i 0
  | _, _ => a j i 2

/-! ### writing the imported list -/

/-- an entry of the imported list (property_collection.py:2288-2291): its array or its constant value -/
inductive Entry
  | array (a : Hdf5.Arr)
  | const (v : Int)

/-- property_collection.py:2476-2478: the dtype after an entry with an array of the element type -/
def dtypeAfter (usePack : Bool) (dtype : Hdf5.RegType) (t : Hdf5.DType) : Hdf5.RegType :=
  if usePack then
    match dtype with
    | .as .bool => .pack
    | .none => if t = .bool then .pack else dtype
    | _ => dtype
  else dtype

/-- the array of a constant: property_collection.py:2469-2471; `np.full` with an element type of 'pack' raises
TypeError; without a dtype the array of a constant is int64 -/
def fullArray (shape : List Nat) (v : Int) : Hdf5.RegType → Res Hdf5.Arr
  | .pack => .error .type
  | .as d => .ok ⟨d, shape, fun _ => v⟩
  | .none => .ok ⟨.int64, shape, fun _ => v⟩

/-- property_collection.py:2461-2480 `write_hdf5_for_imported_list`: the dataset written for each entry (`none` where
nothing is written); `shape` is the supporting shape.  The value of `dtype` is carried from entry to entry.
Simplifications: all entries with the same supporting shape; no file name, mode, chunks or compression; a constant is an
integer. -/
def writeImported (conv : Hdf5.Conv) (useInt32 usePack expand : Bool) (shape : List Nat) :
    Hdf5.RegType → List Entry → Res (List (Option Hdf5.Arr))
  | _, [] => .ok []
  | dtype, .const v :: t =>
    if expand then
      match fullArray shape v dtype with
      | .error e => .error e
      | .ok a =>
        let d := dtypeAfter usePack dtype a.dtype
        match writeImported conv useInt32 usePack expand shape d t with
        | .error e => .error e
        | .ok l => .ok (some (Hdf5.store conv useInt32 a d) :: l)
    else
      match writeImported conv useInt32 usePack expand shape dtype t with
      | .error e => .error e
      | .ok l => .ok (none :: l)
  | dtype, .array a :: t =>
    let d := dtypeAfter usePack dtype a.dtype
    match writeImported conv useInt32 usePack expand shape d t with
    | .error e => .error e
    | .ok l => .ok (some (Hdf5.store conv useInt32 a d) :: l)

/-- property_collection.py:2491-2502 `write_hdf5_for_part`: the dataset for one part, `none` for a constant -/
def writePart (conv : Hdf5.Conv) (usePack : Bool) : Entry → Option Hdf5.Arr
  | .const _ => none
  | .array a => some (Hdf5.store conv true a (if usePack && decide (a.dtype = .bool) then .pack else .none))

/-! ### a property similar to another -/

/-- an argument of `add_similar_to_imported_list`: left out, the text 'none', or a value (property_collection.py:2370-2375);
for an argument that is text, a value other than 'none' -/
inductive Given (α : Type)
  | omitted
  | noneText
  | val (v : α)

/-- property_collection.py:2370-2375 `get_arg` -/
def getArg {α : Type} (supplied : Given α) (similarly : Option α) : Option α :=
  match supplied with
  | .omitted => similarly
  | .noneText => none
  | .val v => some v

/-- what is handed over as `discrete`: a boolean, text or nothing (property_collection.py:2384) -/
inductive Flag
  | bool (b : Bool)
  | text (s : Str)
  | nothing

/-- truth of the value handed over as `discrete`, as tested at property_collection.py:2272 and
_collection_get_attributes.py:21 -/
def Flag.truth : Flag → Bool
  | .bool b => b
  | .text s => !s.isEmpty
  | .nothing => false

/-- the metadata of a property, and the arguments given for a similar one: property_collection.py:2294-2315.  `F` is the
way a field is held. -/
structure Meta (F : Type → Type) where
  title : F Str
  uom : F Str
  timeIndex : F Int
  nullValue : F Rat
  kind : F Str
  localKind : F Nat
  facetType : F Str
  facet : F Str
  realization : F Int
  indexable : F Str
  count : F Nat
  points : F Bool
  timeSeries : F Nat
  stringLookup : F Nat
  source : F Str

/-- property_collection.py:2382-2400: the metadata for the new property, and the value for `discrete`.  `keyword` and
`g.title` are the two arguments for the title; `discrete` is the argument of the name, which is not looked at;
`continuous` and `s` are from the similar property. -/
def similarArgs (keyword : Given Str) (_discrete : Given Bool) (g : Meta Given) (continuous : Bool) (s : Meta Option) :
    Meta Option × Flag :=
  ({ title := getArg keyword (getArg g.title s.title)
     uom := getArg g.uom s.uom
     timeIndex := getArg g.timeIndex s.timeIndex
     nullValue := getArg g.nullValue s.nullValue
     kind := getArg g.kind s.kind
     localKind := getArg g.localKind s.localKind
     facetType := getArg g.facetType s.facetType
     facet := getArg g.facet s.facet
     realization := getArg g.realization s.realization
     indexable := getArg g.indexable s.indexable
     count := getArg g.count s.count
     points := getArg g.points s.points
     timeSeries := getArg g.timeSeries s.timeSeries
     stringLookup := getArg g.timeSeries s.stringLookup
     source := getArg g.source s.source },
   match g.uom with
   | .omitted => .bool (!continuous)
   | .noneText => .nothing
   | .val u => .text u)

/-- property_collection.py:2377-2402, 2271-2273 `add_similar_to_imported_list` with the tests of
`add_cached_array_to_imported_list`: the metadata of the entry added, and whether it is treated as discrete.
`hasArray` and `hasConst` tell which of the array and the constant is given. -/
def addSimilar (hasArray hasConst : Bool) (keyword : Given Str) (discrete : Given Bool) (g : Meta Given)
    (continuous : Bool) (s : Meta Option) : Res (Meta Option × Bool) :=
  if hasArray == hasConst then .error .assertion
  else
    let r := similarArgs keyword discrete g continuous s
    if r.1.title = none then .error .assertion
    else if (r.1.points.getD false) && r.2.truth then .error .assertion
    else match r.1.count with
      | none => .error .type
      | some 0 => .error .assertion
      | some _ => .ok (r.1, r.2.truth)

end Verif.PropColl
