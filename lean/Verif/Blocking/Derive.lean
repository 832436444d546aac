import Verif.Py.Basic
import Verif.Volume.Model

/-!
# Model: blocked wells derived from tables of cells

`/repo/resqpy/well/_blocked_well.py` 584-1095, `well/well_utils.py` 76-105 (the faces found from angles are a parameter).  Numbers are exact;
the length of a vector, with its conversion of units, is a parameter.  Messages and the writing of files are left out.
-/

namespace Verif.Blocking
open Verif.Py
open Verif.Volume (Vec)

/-- a cell: k, j and i from zero; for `WellData` (_blocked_well.py:1527-1543) -/
abbrev Cell := Int × Int × Int

/-- a face of a cell: axis (0, 1, 2 for k, j, i) and polarity -/
abbrev Face := Nat × Nat

/-- a row of the table: the columns IW, JW, L and GRID; `none` is a missing value (_blocked_well.py:878-897) -/
structure Row where
  iw : Option Int
  jw : Option Int
  l : Option Int
  grid : Option String := none
deriving DecidableEq, Repr

/-- _blocked_well.py:878-885 __cell_kji0_from_df -/
def cellOf (r : Row) : Option Cell :=
  match r.iw, r.jw, r.l with
  | some i, some j, some l => some (l - 1, j - 1, i - 1)
  | _, _, _ => none

/-- _blocked_well.py:888-897 __verify_grid_name: the name last warned about, and whether the row is skipped; `upper` is str.upper -/
def verifyGridName (upper : String → String) (check : Option String) (r : Row) (skipped : Option String) : Option String × Bool :=
  match check, r.grid with
  | some c, some g =>
    if c ≠ upper g then
      if skipped ≠ some g then (some g, true) else (skipped, false)
    else (skipped, false)
  | _, _ => (skipped, false)

/-- _blocked_well.py:965-973 the face through which a cell is entered after a move -/
def entryFace (m : Cell) : Face :=
  if m.2.1 = 0 ∧ m.2.2 = 0 then (0, if m.1 ≥ 0 then 0 else 1)
  else if |m.2.1| > |m.2.2| then (1, if m.2.1 ≥ 0 then 0 else 1)
  else (2, if m.2.2 ≥ 0 then 0 else 1)

/-- _blocked_well.py:987-995 the face through which a cell is left before a move -/
def exitFace (m : Cell) : Face :=
  if m.2.1 = 0 ∧ m.2.2 = 0 then (0, if m.1 ≥ 0 then 1 else 0)
  else if |m.2.1| > |m.2.2| then (1, if m.2.1 ≥ 0 then 1 else 0)
  else (2, if m.2.2 ≥ 0 then 1 else 0)

/-- the differences of the indices of two cells; for `fabricateEntry` (_blocked_well.py:963) and `fabricateExit` (_blocked_well.py:985) -/
def move (a b : Cell) : Cell := (b.1 - a.1, b.2.1 - a.2.1, b.2.2 - a.2.2)

/-- _blocked_well.py:953-974 __fabricate_entry_axis_and_polarity_using_indices -/
def fabricateEntry (i : Nat) (cell : Cell) (blocked : List Cell) : Res Face :=
  if i = 0 then .ok (0, 0)
  else
    match blocked.getLast? with
    | none => .error .index
    | some prev => .ok (entryFace (move prev cell))

/-- _blocked_well.py:977-996 __fabricate_exit_axis_and_polarity_using_indices; `next` is the following row, if there is one -/
def fabricateExit (cell : Cell) (entry : Face) (next : Option Row) : Face :=
  match next with
  | none => (entry.1, 1 - entry.2)
  | some r =>
    match cellOf r with
    | none => (entry.1, 1 - entry.2)
    | some c => exitFace (move cell c)

variable {K : Type} [Field K] [LinearOrder K]

/-- _blocked_well.py:1004-1015 the centre of a face; `cp` are the corner points of the cell -/
def faceCentre (cp : Nat → Nat → Nat → Vec K) (f : Face) : Vec K :=
  let mean4 (a b c d : Vec K) : Vec K := ⟨(a.x + b.x + c.x + d.x) / 4, (a.y + b.y + c.y + d.y) / 4, (a.z + b.z + c.z + d.z) / 4⟩
  if f.1 = 0 then mean4 (cp f.2 0 0) (cp f.2 0 1) (cp f.2 1 0) (cp f.2 1 1)
  else if f.1 = 1 then mean4 (cp 0 f.2 0) (cp 0 f.2 1) (cp 1 f.2 0) (cp 1 f.2 1)
  else mean4 (cp 0 0 f.2) (cp 0 1 f.2) (cp 1 0 f.2) (cp 1 1 f.2)

/-- _blocked_well.py:999-1016 entry and exit points: face centres, or nothing to unpack -/
def entryExitPoints (useFaceCentres : Bool) (cp : Nat → Nat → Nat → Vec K) (entry exit : Face) : Res (Vec K × Vec K) :=
  if useFaceCentres then .ok (faceCentre cp entry, faceCentre cp exit) else .error .type

/-- vector_utilities.py:1407-1415 isclose, with the tolerance 0.05 of _blocked_well.py:1028 -/
def isClose (a b : Vec K) : Bool := decide (max (max |a.x - b.x| |a.y - b.y|) |a.z - b.z| ≤ 1 / 20)

/-- the lists which are built up: _blocked_well.py:775-786, and the variables of the loop which are used after it -/
structure State (K : Type) where
  prev : Option (Vec K)
  mds : List K
  points : List (Vec K)
  intervals : List Int
  cells : List Cell
  pairs : List (Face × Face)
  skipped : Option String
  lastCell : Option Cell
  lastExit : Option Face

/-- before the first row (_blocked_well.py:775-786) -/
def State.init : State K := ⟨none, [], [], [], [], [], none, none, none⟩

/-- _blocked_well.py:1022-1027 the start of the trajectory, before the first interval -/
def startAt (s : State K) (entryXyz : Vec K) : Vec K × State K :=
  match s.prev with
  | some p => (p, s)
  | none =>
    let p : Vec K := ⟨entryXyz.x, entryXyz.y, 0⟩
    (p, { s with mds := s.mds ++ [0], points := s.points ++ [p] })

/-- _blocked_well.py:1028-1035 an unblocked interval, if the entry point is away from where the trajectory is -/
def addUnblocked (len : Vec K → K) (prev : Vec K) (s : State K) (entryXyz : Vec K) : Vec K × State K :=
  if isClose prev entryXyz then (prev, s)
  else (entryXyz, { s with
    points := s.points ++ [entryXyz]
    mds := s.mds ++ [s.mds.getLastD 0 + len (entryXyz - prev)]
    intervals := s.intervals ++ [-1] })

/-- _blocked_well.py:1036-1043 a blocked interval -/
def addBlocked (len : Vec K → K) (prev : Vec K) (s : State K) (entry exit : Face) (exitXyz : Vec K) (cell : Cell) : State K :=
  { s with
    points := s.points ++ [exitXyz]
    mds := s.mds ++ [s.mds.getLastD 0 + len (exitXyz - prev)]
    intervals := s.intervals ++ [0]
    prev := some exitXyz
    cells := s.cells ++ [cell]
    pairs := s.pairs ++ [(entry, exit)] }

/-- _blocked_well.py:1019-1045 __add_interval -/
def addInterval (len : Vec K → K) (s : State K) (entry : Face) (entryXyz : Vec K) (exit : Face) (exitXyz : Vec K) (cell : Cell) : State K :=
  let (p, s) := startAt s entryXyz
  let (p, s) := addUnblocked len p s entryXyz
  addBlocked len p s entry exit exitXyz cell

/-- what the calculation depends on besides the rows: whether to check grid names, the corner points of cells, lengths, the faces found from
angles if these are present, and whether to use face centres (_blocked_well.py:747-754, 788-793) -/
structure Setting (K : Type) where
  upper : String → String
  check : Option String
  corners : Cell → Nat → Nat → Nat → Vec K
  len : Vec K → K
  angles : Option (Row → Cell → Res (Face × Face))
  useFaceCentres : Bool

/-- _blocked_well.py:900-921 the faces of entry and exit -/
def facesFor (e : Setting K) (i : Nat) (r : Row) (next : Option Row) (cell : Cell) (blocked : List Cell) : Res (Face × Face) :=
  match e.angles with
  | some f => f r cell
  | none => do
    let entry ← fabricateEntry i cell blocked
    .ok (entry, fabricateExit cell entry next)

/-- _blocked_well.py:791-793 with no angles face centres are used in any case -/
def centresUsed (e : Setting K) : Bool := e.useFaceCentres || e.angles.isNone

/-- _blocked_well.py:795-848 one row -/
def step (e : Setting K) (i : Nat) (r : Row) (next : Option Row) (s : State K) : Res (State K) :=
  match cellOf r with
  | none => .ok { s with lastCell := none }
  | some cell =>
    let s := { s with lastCell := some cell }
    let (name, skip) := verifyGridName e.upper e.check r s.skipped
    let s := { s with skipped := name }
    if skip then .ok s
    else do
      let (entry, exit) ← facesFor e i r next cell s.cells
      let (entryXyz, exitXyz) ← entryExitPoints (centresUsed e) (e.corners cell) entry exit
      .ok { addInterval e.len s entry entryXyz exit exitXyz cell with lastExit := some exit }

/-- _blocked_well.py:795-848 all rows -/
def loop (e : Setting K) : Nat → List Row → State K → Res (State K)
  | _, [], s => .ok s
  | i, r :: rest, s => do
    let s ← step e i r rest.head? s
    loop e (i + 1) rest s

/-- the grid: numbers of layers, rows and columns, and directions (_blocked_well.py:1061-1065) -/
structure GridInfo where
  nk : Int
  nj : Int
  ni : Int
  kDown : Bool
  zDown : Bool

/-- grid/_grid.py:277-287 natural_cell_indices, for one cell -/
def natural (g : GridInfo) (c : Cell) : Int := (c.1 * g.nj + c.2.1) * g.ni + c.2.2

/-- _blocked_well.py:1057-1070 __add_tail_to_trajectory_if_necessary -/
def addTail (g : GridInfo) (s : State K) : Res (List (Vec K) × List K) :=
  if s.lastExit = some (0, 1) then
    match s.lastCell with
    | none => .error .type
    | some c =>
      if c.1 = g.nk - 1 ∧ g.kDown = true then
        match s.points.getLast? with
        | none => .error .index
        | some p => .ok (s.points ++ [⟨p.x, p.y, p.z + 10 * (if g.zDown then 1 else -1)⟩], s.mds ++ [s.mds.getLastD 0 + 10])
      else .ok (s.points, s.mds)
  else .ok (s.points, s.mds)

/-- the blocked well: _blocked_well.py:855-861, with the trajectory of 863-872 -/
structure Well (K : Type) where
  nodeCount : Nat
  nodeMds : List K
  cellCount : Nat
  gridIndices : List Int
  cellIndices : List Int
  facePairs : List (Face × Face)
  trajPoints : List (Vec K)
  trajMds : List K

/-- _blocked_well.py:747-875 derive_from_dataframe; with no cell at all the conversion of the (empty) array of cells fails -/
def deriveFromDataframe (e : Setting K) (g : GridInfo) (rows : List Row) : Res (Well K) :=
  if rows = [] then .error .assertion
  else do
    let s ← loop e 0 rows State.init
    if s.cells = [] then .error .index
    else do
      let (pts, mds) ← addTail g s
      .ok ⟨s.mds.length, s.mds, s.cells.length, s.intervals, s.cells.map (natural g), s.pairs, pts, mds⟩

/-- _blocked_well.py:1072-1095, 2722-2744 the values of a column added as a property: the table must have as many rows as there are cells -/
def addColumn {α : Type} (w : Well K) (column : List α) : Res (List α) :=
  if column.length = w.cellCount then .ok column else .error .assertion

/-- _blocked_well.py:737-745 derive_from_cell_list -/
def rowsOfCells (cells : List Cell) : List Row := cells.map fun c => ⟨some (c.2.2 + 1), some (c.2.1 + 1), some (c.1 + 1), none⟩

/-- _blocked_well.py:589-603 the rows for a column: layers which are pinched out, or inactive and to be left out, are passed over -/
def columnRows (nk : Nat) (j i : Int) (left : Nat → Bool) : List Row :=
  ((List.range nk).filter fun k => !left k).map fun (k : Nat) => ⟨some (i + 1), some (j + 1), some ((k : Int) + 1), none⟩

/-- _blocked_well.py:647-724 derive_from_wellspec, after reading the file: `dated` if there are dates, which are used unless only the last data
are wanted; derive_from_dataframe does not take the two arguments with which it is called then -/
def deriveFromWellspec (e : Setting K) (g : GridInfo) (addProperties lastDataOnly dated : Bool) (rows : List Row) : Res (Well K) :=
  if !addProperties || lastDataOnly || !dated then deriveFromDataframe e g rows
  else .error .type

end Verif.Blocking
