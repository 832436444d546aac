import Verif.Py.Basic

/-! # Model of gathering an ensemble

Source: resqpy/derived_model/_gather_ensemble.py, with the parts of resqpy/model/_forestry.py, resqpy/model/_model.py and resqpy/olio/consolidation.py which it
uses.  Of the parts of a case there are IJK grids, time series and properties of grids: a property has one supporting representation and at most one time series.
Objects of one case have different uuids, and no two time series of the first case are equivalent.  Parts of other classes, relationships and hdf5 files are
left out: the data of a property are one value. -/

namespace Verif.Ensemble

/-- What stops the function, for _gather_ensemble.py:81 (`index`), :92 (`iterate`), :99 (`unmatched`) and consolidation.py:139-169 (`circular`) -/
inductive Err
  | index
  | iterate
  | unmatched
  | circular
deriving DecidableEq

/-- An IJK grid, for _gather_ensemble.py:67-70 -/
structure Grid where
  uuid : Nat
  extent : Nat × Nat × Nat
  title : String
deriving DecidableEq

/-- A time series, for _gather_ensemble.py:58-61 -/
structure Series where
  uuid : Nat
  title : String
deriving DecidableEq

/-- A property, for _gather_ensemble.py:105-118 and _forestry.py:621-628 -/
structure Property where
  uuid : Nat
  grid : Nat
  series : Option Nat
  realization : Option Nat
  data : Nat
deriving DecidableEq

/-- One realization, for _gather_ensemble.py:50-54 -/
structure Case where
  path : String
  grids : List Grid
  series : List Series
  props : List Property
deriving DecidableEq

/-- The composite model, for _gather_ensemble.py:46, 123-125; `lookup` is the table from realization numbers to paths. -/
structure Composite where
  grids : List Grid
  series : List Series
  props : List Property
  lookup : List (Nat × String)
deriving DecidableEq

/-- Arguments of gather_ensemble (_gather_ensemble.py:15-44): `shared` is consolidate with shared_grids and shared_time_series, all by default; `separate` is
shared_grids = False; `apart s` is consolidate = False, with shared_time_series = s.  Consolidating without shared_time_series is not modelled. -/
inductive Mode
  | shared
  | separate
  | apart (sharedSeries : Bool)
deriving DecidableEq

/-- consolidation.py:129-151 force_uuid_equivalence: the map is a list of pairs of a uuid and the resident uuid. -/
def force (m : List (Nat × Nat)) (u h : Nat) : Except Err (List (Nat × Nat)) :=
  if u = h then .ok m
  else if m.any (fun e => e.2 = u) then .error .circular
  else .ok (m ++ [(u, h)])

/-- _gather_ensemble.py:79-83: the loop over time series of a later case -/
def mapSeries (host : List Series) : List Series → List (Nat × Nat) → Except Err (List (Nat × Nat))
  | [], m => .ok m
  | t :: ts, m =>
    match host.find? (fun h => h.title = t.title) with
    | none => .error .index
    | some h =>
      match force m t.uuid h.uuid with
      | .error e => .error e
      | .ok m' => mapSeries host ts m'

/-- _gather_ensemble.py:71: len(set(shapes)) < len(shapes), negated -/
def distinct : List Grid → Bool
  | [] => true
  | g :: gs => !(gs.any (fun h => h.extent = g.extent)) && distinct gs

/-- _gather_ensemble.py:86-99: the grid of the first case for a grid of a later case.  Where titles are needed the loop is over an integer, which raises
TypeError (line 92). -/
def matchGrid (host : List Grid) (g : Grid) : Except Err Grid :=
  match host.find? (fun h => h.extent = g.extent) with
  | none => .error .unmatched
  | some h => if distinct host then .ok h else .error .iterate

/-- _gather_ensemble.py:85-100: the loop over grids of a later case.  The properties are copied in this loop (lines 101-118); here they are copied after it,
which is the same as the entries for one grid are not changed by the next ones. -/
def mapGrids (host : List Grid) : List Grid → List (Nat × Nat) → Except Err (List (Nat × Nat))
  | [], m => .ok m
  | g :: gs, m =>
    match matchGrid host g with
    | .error e => .error e
    | .ok h =>
      match force m g.uuid h.uuid with
      | .error e => .error e
      | .ok m' => mapGrids host gs m'

/-- consolidation.py:163-169 check_map_integrity -/
def integral (m : List (Nat × Nat)) : Bool := m.all (fun e => m.all (fun e' => e.1 ≠ e'.2))

/-- _forestry.py:657-699: what a reference becomes; a uuid which is in the composite model already is left (lines 658-661). -/
def resolve (present : List Nat) (m : List (Nat × Nat)) (u : Nat) : Nat :=
  if u ∈ present then u
  else
    match m.find? (fun e => e.1 = u) with
    | some e => e.2
    | none => u

/-- Uuids of grids and time series of the composite model, for _forestry.py:658 -/
def present (c : Composite) : List Nat := c.grids.map (·.uuid) ++ c.series.map (·.uuid)

/-- _forestry.py:570-599: the copy of a property, with references resolved and the realization set (lines 621-628) -/
def copied (pr : List Nat) (m : List (Nat × Nat)) (r : Nat) (p : Property) : Property :=
  { p with grid := resolve pr m p.grid, series := p.series.map (resolve pr m), realization := some r }

/-- Copying of properties one after the other; one which is in the composite model is passed over (_model.py:2112-2113, _forestry.py:755-756). -/
def addProps (f : Property → Property) : List Property → List Property → List Property
  | acc, [] => acc
  | acc, p :: ps => if acc.any (fun q => q.uuid = p.uuid) then addProps f acc ps else addProps f (acc ++ [f p]) ps

/-- Copying of grids which the composite model does not have, as _forestry.py:754-769 -/
def addGrids (acc gs : List Grid) : List Grid := acc ++ gs.filter (fun g => !(acc.any (fun h => h.uuid = g.uuid)))

/-- Copying of time series which the composite model does not have, as _forestry.py:754-769 -/
def addSeries (acc ts : List Series) : List Series := acc ++ ts.filter (fun t => !(acc.any (fun h => h.uuid = t.uuid)))

/-- _gather_ensemble.py:101-106: properties related to the grids of a case -/
def related (c : Case) : List Property := c.grids.flatMap (fun g => c.props.filter (fun p => p.grid = g.uuid))

/-- _gather_ensemble.py:55-75: the first case; all its parts are copied (_forestry.py:733-772). -/
def first (c : Case) : Composite :=
  { grids := c.grids, series := c.series, props := addProps (copied [] [] 0) [] c.props, lookup := [(0, c.path)] }

/-- _gather_ensemble.py:76-120: a later case -/
def later (mode : Mode) (host : Case) (r : Nat) (s : Composite) (c : Case) : Except Err Composite :=
  match mode with
  | .shared =>
    match mapSeries host.series c.series [] with
    | .error e => .error e
    | .ok m =>
      match mapGrids host.grids c.grids m with
      | .error e => .error e
      | .ok m' => .ok { s with props := addProps (copied (present s) m' r) s.props (related c), lookup := s.lookup ++ [(r, c.path)] }
  | .separate =>
    match mapSeries host.series c.series [] with
    | .error e => .error e
    | .ok m =>
      if integral m then
        .ok { s with grids := addGrids s.grids c.grids, props := addProps (copied (present s) m r) s.props c.props,
                     lookup := s.lookup ++ [(r, c.path)] }
      else .error .circular
  | .apart sharedSeries =>
    match (if sharedSeries then mapSeries host.series c.series [] else .ok []) with
    | .error e => .error e
    | .ok _ =>
      .ok { grids := addGrids s.grids c.grids, series := addSeries s.series c.series,
            props := addProps (copied [] [] r) s.props c.props, lookup := s.lookup ++ [(r, c.path)] }

/-- _gather_ensemble.py:50-121: the loop over cases after the first -/
def loop (mode : Mode) (host : Case) : Nat → Composite → List Case → Except Err Composite
  | _, s, [] => .ok s
  | r, s, c :: cs =>
    match later mode host r s c with
    | .error e => .error e
    | .ok s' => loop mode host (r + 1) s' cs

/-- _gather_ensemble.py:15-129 gather_ensemble -/
def gather (mode : Mode) : List Case → Except Err Composite
  | [] => .ok ⟨[], [], [], []⟩
  | c :: cs => loop mode c 1 (first c) cs

end Verif.Ensemble
