import Verif.Py.Basic

/-! # Kinds of grid (grid/_grid_types.py and the writers and readers of the classes of grid)

Of the xml of a grid only what decides its class is modelled.  Alignment and origin of lattices, and the arrays of geometry, are not. -/

namespace Verif.GridKind
open Verif.Py

/-- the type of a Points node, for `ijkFlavour` (_grid_types.py:25-33) -/
inductive Points where
  | lattice
  | hdf5
  | parametric
  | other
deriving DecidableEq

/-- the type of the root node, for `gridFlavour` (_grid_types.py:19, 34) -/
inductive Node where
  | ijk
  | unstructured
  | other
deriving DecidableEq

/-- a Geometry node, for `gridFlavour` (_grid_types.py:20-24, 35): the Points node and the text of CellShape, if there -/
structure Geom where
  points : Option Points
  shape : Option String
deriving DecidableEq

/-- the xml of a grid, for `gridFlavour` (_grid_types.py:10-46): flavour in extra metadata, type and geometry; `lengths` tells whether the model has the
three constant cell length properties of a regular grid for it (_regular_grid.py:224-241) -/
structure Xml where
  flavour? : Option String
  node : Node
  geom : Option Geom
  lengths : Bool
deriving DecidableEq

/-- _grid_types.py:19-33 flavour of an ijk grid by its geometry -/
def ijkFlavour (g : Option Geom) : Res (Option String) :=
  match g with
  | none => .ok (some "IjkBlockGrid")
  | some g => match g.points with
    | none => .error .assertion
    | some .lattice => .ok (some "IjkBlockGrid")
    | some .hdf5 => .ok (some "IjkGrid")
    | some .parametric => .ok (some "IjkGrid")
    | some .other => .error .value

/-- _grid_types.py:34-45 flavour of an unstructured grid by the shape of its cells -/
def shapeFlavour (s : Option String) : Option String :=
  if s = none ∨ s = some "polyhedral" then some "UnstructuredGrid"
  else if s = some "tetrahedral" then some "TetraGrid"
  else if s = some "hexahedral" then some "HexaGrid"
  else if s = some "pyramidal" then some "PyramidGrid"
  else if s = some "prism" then some "PrismGrid"
  else none

/-- _grid_types.py:10-46 grid_flavour -/
def gridFlavour (x : Xml) : Res (Option String) :=
  match x.flavour? with
  | some f => .ok (some f)
  | none => match x.node with
    | .ijk => ijkFlavour x.geom
    | .unstructured => .ok (shapeFlavour (x.geom.bind (·.shape)))
    | .other => .ok none

/-- the classes of grid (grid/_grid_types.py:65-67, unstructured/__init__.py:4), for `anyGrid` (_grid_types.py:70-87) -/
inductive Cls where
  | grid
  | regular
  | unstructured
  | tetra
  | hexa
  | pyramid
  | prism
  | verticalPrism
deriving DecidableEq

/-- _unstructured_grid.py:21 valid_cell_shapes -/
def validShapes : List String := ["polyhedral", "tetrahedral", "pyramidal", "prism", "hexahedral"]

/-- unstructured/_unstructured_grid.py:105-107, 113-131 reading an unstructured grid, with geometry required as by default -/
def readUnstructured (x : Xml) : Res Unit :=
  match x.geom with
  | none => .error .assertion
  | some g => match g.shape with
    | none => .error .assertion
    | some s => if s ∈ validShapes then .ok () else .error .assertion

/-- grid/_grid.py:150-151, 155-174 reading a grid of class Grid; grid/_regular_grid.py:176-187, 200-260 reading one of class RegularGrid -/
def readIjk (cls : Cls) (x : Xml) : Res Unit :=
  match gridFlavour x with
  | .error e => .error e
  | .ok f =>
    if f ≠ some "IjkGrid" ∧ f ≠ some "IjkBlockGrid" then .error .assertion
    else if cls = .regular then
      if f ≠ some "IjkBlockGrid" then .error .assertion
      else match x.geom with
        | none => if x.lengths then .ok () else .error .assertion
        | some g => if g.points = some .lattice then .ok () else .error .assertion
    else match x.geom with
      | none => .error .assertion
      | some g => if g.points = some .hdf5 ∨ g.points = some .parametric then .ok () else .error .assertion

/-- _grid_types.py:70-87 the class for a flavour -/
def classFor (f : Option String) : Option Cls :=
  if f = some "IjkGrid" then some .grid
  else if f = some "IjkBlockGrid" then some .regular
  else if f = some "UnstructuredGrid" then some .unstructured
  else if f = some "TetraGrid" then some .tetra
  else if f = some "HexaGrid" then some .hexa
  else if f = some "PyramidGrid" then some .pyramid
  else if f = some "PrismGrid" then some .prism
  else none

/-- _grid_types.py:54-88 any_grid: the class of the grid made, if any.  Simplified: checks of numbers of faces and nodes are left out -/
def anyGrid (x : Xml) : Res (Option Cls) :=
  match gridFlavour x with
  | .error e => .error e
  | .ok f => match classFor f with
    | none => .ok none
    | some c =>
      match (if c = .grid ∨ c = .regular then readIjk c x else readUnstructured x) with
      | .error e => .error e
      | .ok _ => .ok (some c)

/-- the shape of cells given by the class, else as asked for (unstructured/_tetra_grid.py:53, _hexa_grid.py:52, _pyramid_grid.py:51, _prism_grid.py:63,
_unstructured_grid.py:72-76) -/
def shapeOf (c : Cls) (asked : String) : String :=
  match c with
  | .tetra => "tetrahedral"
  | .hexa => "hexahedral"
  | .pyramid => "pyramidal"
  | .prism => "prism"
  | .verticalPrism => "prism"
  | _ => asked

/-- grid_representation of an unstructured grid (unstructured/_unstructured_grid.py:89, _tetra_grid.py:62, _hexa_grid.py:61, _pyramid_grid.py:60,
_prism_grid.py:72, 150) -/
def representation (c : Cls) : String :=
  match c with
  | .tetra => "TetraGrid"
  | .hexa => "HexaGrid"
  | .pyramid => "PyramidGrid"
  | .prism => "PrismGrid"
  | .verticalPrism => "VerticalPrismGrid"
  | _ => "UnstructuredGrid"

/-- unstructured/_unstructured_grid.py:998-1028 create_xml -/
def writeUnstructured (c : Cls) (asked : String) (writeGeometry : Bool) : Xml :=
  { flavour? := if ¬ writeGeometry then some (representation c) else none
    node := .unstructured
    geom := if writeGeometry then some ⟨some .hdf5, some (shapeOf c asked)⟩ else none
    lengths := false }

/-- grid/_create_grid_xml.py:27-28 and its writing of the points (lines 290-298, 403): `rep` is grid_representation and `extra` the flavour in the
metadata handed down, which a later entry replaces when read -/
def writeIjk (rep extra : Option String) (writeGeometry useLattice useParametric lengths : Bool) : Xml :=
  { flavour? := if rep ≠ none ∧ ¬ writeGeometry then rep else extra
    node := .ijk
    geom := if writeGeometry then some ⟨some (if useLattice then .lattice else if useParametric then .parametric else .hdf5), none⟩ else none
    lengths := lengths }

/-- grid/_grid.py:109, 616-675 create_xml of a new grid of class Grid -/
def writeGrid (writeGeometry useParametric : Bool) : Xml := writeIjk none none writeGeometry false useParametric false

/-- grid/_regular_grid.py:115, 740-770 create_xml of a new regular grid; `lengths` for add_cell_length_properties -/
def writeRegular (asIrregular : Bool) (writeGeometry : Option Bool) (useLattice lengths : Bool) : Xml :=
  let rep := if asIrregular then "IjkGrid" else "IjkBlockGrid"
  let write := writeGeometry.getD (decide (rep = "IjkGrid"))
  let lattice := if rep = "IjkGrid" then false else useLattice
  let extra := if write ∧ ¬ lattice then some "IjkGrid" else none
  writeIjk (some rep) extra (write || lattice) lattice false lengths

end Verif.GridKind
