import Verif.Py.Basic

/-! # Model of the shared grid objects of a model

Source: resqpy/model/_grids.py.  Titles are compared in upper case (model/_catalogue.py:47-48); here they are in upper case.  uuids of grids and numbers
of grid objects are natural numbers. -/

namespace Verif.GridCache
open Verif.Py

/-- An IjkGridRepresentation part with its time of creation, for `find` (_grids.py:14, 18, 52) -/
structure Part where
  uuid : Nat
  title : String
  created : Nat
deriving DecidableEq

/-- A grid object, which is for a part; for `grid` (_grids.py:56-61) -/
structure Obj where
  number : Nat
  uuid : Nat
deriving DecidableEq

/-- Parts of the model, model.grid_list, model.grid_root (as uuid) and the number of the next object; for `grid` (_grids.py:38-66).  model.main_grid is never set in
the code. -/
structure State where
  parts : List Part
  objs : List Obj
  gridRoot : Option Nat
  next : Nat

/-- Parts with a uuid and a title, each if given; a blank title is no restriction; for `find` (model/_catalogue.py:30-48) -/
def matching (s : State) (uuid : Option Nat) (title : Option String) : List Part :=
  s.parts.filter fun g => (uuid.isNone ∨ uuid = some g.uuid) ∧ (title.isNone ∨ title = some "" ∨ title = some g.title)

/-- `model.root` (model/_catalogue.py:87-99), where several parts which match are an exception -/
def find (s : State) (uuid : Option Nat) (title : Option String) : Res (Option Nat) :=
  match matching s uuid title with
  | [] => .ok none
  | [g] => .ok (some g.uuid)
  | _ => .error .value

/-- The oldest of several parts, the first among those of the same time; for `defaultRoot` (model/_catalogue.py:94-97, 672-687) -/
def oldest (g : Part) (l : List Part) : Part := l.foldl (fun best x => if x.created < best.created then x else best) g

/-- _grids.py:8-22 _root_for_ijk_grid, without uuid and title -/
def defaultRoot (s : State) : Res Nat :=
  match matching s none (some "ROOT") with
  | g :: l => .ok (oldest g l).uuid
  | [] =>
    match find s none none with
    | .error e => .error e
    | .ok none => .error .assertion
    | .ok (some u) => .ok u

/-- _grids.py:25-35 _resolve_grid_root -/
def resolve (s : State) (root : Option Nat) : Res (Nat × State) :=
  match root with
  | some r => .ok (r, if s.gridRoot.isNone then { s with gridRoot := some r } else s)
  | none =>
    match s.gridRoot with
    | some r => .ok (r, s)
    | none =>
      match defaultRoot s with
      | .error e => .error e
      | .ok r => .ok (r, { s with gridRoot := some r })

/-- _grids.py:41-53 _grid: the root -/
def rootFor (s : State) (title : Option String) (uuid : Option Nat) : Res (Nat × State) :=
  if uuid.isNone ∧ (title.isNone ∨ title = some "ROOT") then
    if title.isNone then resolve s none
    else
      match find s none title with
      | .error e => .error e
      | .ok r => resolve s r
  else
    match find s uuid title with
    | .error e => .error e
    | .ok none => .error .assertion
    | .ok (some r) => .ok (r, s)

/-- _grids.py:38-66 _grid: the object for the part, a new one if there is none; `find_properties` left out -/
def grid (s : State) (title : Option String) (uuid : Option Nat) : Res (Obj × State) :=
  match rootFor s title uuid with
  | .error e => .error e
  | .ok (r, s) =>
    match s.objs.find? (fun o => o.uuid = r) with
    | some o => .ok (o, s)
    | none => .ok (⟨s.next, r⟩, { s with objs := s.objs ++ [⟨s.next, r⟩], next := s.next + 1 })

/-- _grids.py:69-76 _add_grid: an object made elsewhere, for a part of the model -/
def addGrid (s : State) (uuid : Nat) (check : Bool) : State :=
  if check ∧ s.objs.any (fun o => o.uuid = uuid) then s
  else { s with objs := s.objs ++ [⟨s.next, uuid⟩], next := s.next + 1 }

/-- What is done with a model: a call of `grid` (an exception leaves the model as it is, _grids.py:53), of `add_grid` (_grids.py:69-76), or a new grid part -/
inductive Op where
  | grid (title : Option String) (uuid : Option Nat)
  | add (uuid : Nat) (check : Bool)
  | part (p : Part)

/-- One of these; an object is added only for a part of the model, and a new part has a new uuid; for _grids.py:38-76 -/
def step (s : State) : Op → State
  | .grid t u => match grid s t u with | .ok (_, s') => s' | .error _ => s
  | .add u c => if s.parts.any (fun p => p.uuid = u) then addGrid s u c else s
  | .part p => if s.parts.any (fun q => q.uuid = p.uuid) then s else { s with parts := s.parts ++ [p] }

/-- A history, for _grids.py:38-76 -/
def run (s : State) (ops : List Op) : State := ops.foldl step s

/-- A model just opened (model/_model.py:159, 169) -/
def opened (parts : List Part) : State := ⟨parts, [], none, 0⟩

end Verif.GridCache
