import Verif.Py.Basic
import Mathlib.Data.List.Sort
import Mathlib.Data.Prod.Lex

/-! # Model of `resqpy/multi_processing/_multiprocessing.py` and of the order of `resqpy/olio/consolidation.py`

A worker is a function of its number and of its arguments; what workers do in their own files is left out, so that a schedule is the order in which their results
come in.  `M` is what the recombined model holds, `E` are names of epc files and `U` are uuids.  That a file is there, can be opened, or that an object can be
copied, is asked of a function of the number of times asked before, which stands for all that others do meanwhile; an attempt which is blocked changes nothing.
Writing the epc file is one action, and so is the removal of the temporary directory. -/

namespace Verif.Multi
open Verif.Py

/-! ## The order of parts -/

/-- consolidation.py:17-23 consolidatable_list -/
def consolidatable : List String :=
  ["OrganizationFeature", "GeobodyFeature", "BoundaryFeature", "FrontierFeature", "GeologicUnitFeature",
   "FluidBoundaryFeature", "RockFluidUnitFeature", "TectonicBoundaryFeature", "GeneticBoundaryFeature",
   "WellboreFeature", "FaultInterpretation", "EarthModelInterpretation", "HorizonInterpretation",
   "GeobodyBoundaryInterpretation", "GeobodyInterpretation", "WellboreInterpretation", "LocalDepth3dCrs",
   "LocalTime3dCrs", "TimeSeries", "StringTableLookup", "PropertyKind"]

/-- consolidation.py:25-29 ordering_list -/
def orderingList : List String :=
  consolidatable ++
  ["MdDatum", "WellboreTrajectoryRepresentation", "WellboreFrameRepresentation", "WellboreMarkerFrameRepresentation",
   "IjkGridRepresentation", "BlockedWellboreRepresentation", "TriangulatedSetRepresentation", "Grid2dRepresentation",
   "PointSetRepresentation"]

/-- `endswith`; for `ordering` (consolidation.py:176) -/
def endsWith (s t : String) : Bool := decide (t.toList <:+ s.toList)

/-- consolidation.py:172-182 _ordering; no type, for a uuid which is not in the model, has no `endswith` -/
def ordering (objType : Option String) : Res Nat :=
  match objType with
  | none => .error .attribute
  | some t =>
    if t ∈ orderingList then .ok (orderingList.idxOf t)
    else if endsWith t "Interpretation" then .ok (orderingList.length + 1)
    else if endsWith t "Representation" then .ok (orderingList.length + 2)
    else if endsWith t "Property" then .ok (orderingList.length + 3)
    else .ok orderingList.length

section
variable {U : Type} [LinearOrder U]

omit [LinearOrder U] in
/-- consolidation.py:196-198 sort_uuids_list: the pairs -/
def pairs (typeOf : U → Option String) : List U → Res (List (Nat × U))
  | [] => .ok []
  | u :: us =>
    match ordering (typeOf u) with
    | .error e => .error e
    | .ok n =>
      match pairs typeOf us with
      | .error e => .error e
      | .ok l => .ok ((n, u) :: l)

/-- consolidation.py:193-200 sort_uuids_list; there is no going through None -/
def sortUuids (typeOf : U → Option String) (uuids : Option (List U)) : Res (List U) :=
  match uuids with
  | none => .error .type
  | some us =>
    match pairs typeOf us with
    | .error e => .error e
    | .ok l => .ok ((l.insertionSort fun a b => toLex a ≤ toLex b).map Prod.snd)

end

/-! ## Many workers -/

/-- What a worker returns; for `recombine` (_multiprocessing.py:45-50) -/
structure Result (E U : Type) where
  index : Nat
  success : Bool
  epc : Option E
  uuids : Option (List U)
deriving DecidableEq

/-- What is done to the disk, and to the model in memory, in turn; for `multiprocess` (_multiprocessing.py:34-172) -/
inductive Act (M : Type) where
  | mkTmp
  | run
  | live (m : M)
  | rmTmp
  | store
deriving DecidableEq

/-- _multiprocessing.py:128-135, 136-145, 150-159 function_multiprocessing: the loops which try again, at most `left` times more -/
def tries (ok : Nat → Bool) (e : PyErr) : Nat → Nat → Res Unit
  | 0, k => if ok k then .ok () else .error e
  | left + 1, k => if ok k then .ok () else tries ok e left (k + 1)

/-- What may happen meanwhile: whether an epc file is there, can be opened, or its object can be copied, at each attempt; for `recombine`
(_multiprocessing.py:128-159) -/
structure Luck (E U : Type) where
  there : E → Nat → Bool
  opens : E → Nat → Bool
  copies : E → U → Nat → Bool

section
variable {M E U : Type} [LinearOrder U]

omit [LinearOrder U] in
/-- _multiprocessing.py:149-159 function_multiprocessing: the objects of one worker; `copy` stands for `copy_uuid_from_other_model`.  What is in memory after each
is noted, also if a later one fails. -/
def copyAll (copy : M → E → U → Res M) (luck : Luck E U) (e : E) : List U → M → Res M × List (Act M)
  | [], m => (.ok m, [])
  | u :: us, m =>
    match tries (luck.copies e u) .custom 4 0 with
    | .error x => (.error x, [])
    | .ok _ =>
      match copy m e u with
      | .error x => (.error x, [])
      | .ok m' =>
        let r := copyAll copy luck e us m'
        (r.1, .live m' :: r.2)

/-- _multiprocessing.py:123-159 function_multiprocessing: all workers -/
def recombine (copy : M → E → U → Res M) (typeOf : E → U → Option String) (luck : Luck E U) : List (Result E U) → M → Res M × List (Act M)
  | [], m => (.ok m, [])
  | r :: rs, m =>
    match r.epc with
    | none => recombine copy typeOf luck rs m
    | some e =>
      match tries (luck.there e) .custom 300 0 with
      | .error x => (.error x, [])
      | .ok _ =>
        match tries (luck.opens e) .custom 9 0 with
        | .error x => (.error x, [])
        | .ok _ =>
          match sortUuids (typeOf e) r.uuids with
          | .error x => (.error x, [])
          | .ok us =>
            match copyAll copy luck e us m with
            | (.error x, acts) => (.error x, acts)
            | (.ok m', acts) =>
              let q := recombine copy typeOf luck rs m'
              (q.1, acts ++ q.2)

/-- _multiprocessing.py:34-172 function_multiprocessing, from the results in the order in which they came in; `m0` is what the recombined model holds before -/
def multiprocess (copy : M → E → U → Res M) (typeOf : E → U → Option String) (luck : Luck E U) (m0 : M) (requireSuccess cleanUp : Bool) (arrived : List (Result E U)) :
    Res (List Bool) × List (Act M) :=
  let results := arrived.insertionSort fun a b => a.index ≤ b.index
  let successes := results.map Result.success
  if requireSuccess ∧ (successes.filter id).length < results.length then (.error .custom, [.mkTmp, .run])
  else
    match recombine copy typeOf luck results m0 with
    | (.error x, acts) => (.error x, .mkTmp :: .run :: .live m0 :: acts)
    | (.ok _, acts) => (.ok successes, .mkTmp :: .run :: .live m0 :: acts ++ (if cleanUp then [.rmTmp] else []) ++ [.store])

end

/-- _multiprocessing.py:88-90, 96, 102 function_multiprocessing: what the workers return, in order, each called with its number -/
def outcomes {K E U : Type} (work : Nat → K → Result E U) (kwargs : List K) : List (Result E U) := kwargs.zipIdx.map fun k => work k.2 k.1

end Verif.Multi
