import Verif.Crs.Axes
import Verif.Units.Model
import Mathlib.Analysis.SpecialFunctions.Trigonometric.Basic

/-! # Coordinate reference systems (crs.py)

Coordinates are real numbers; `cos` and `sin` are the real functions. -/

namespace Verif.Crs
open Verif.Py Verif.Units

noncomputable section
open Classical

/-- for `rotate` (vector_utilities.py:314-331) -/
abbrev Pt := ℝ × ℝ × ℝ

/-- crs.py:105-115: the attributes of a crs.  `ident` is the identity of the object (`is`), `deg` the rotation converted
to degrees (crs.py:167, see `Loaded`).  Citation details are left out. -/
structure Crs where
  ident : Nat
  uuid : Nat
  xOff : ℝ
  yOff : ℝ
  zOff : ℝ
  rotation : ℝ
  rotationUnits : Uom
  deg : ℝ
  xyUnits : Uom
  zUnits : Uom
  zIncDown : Bool
  axis : Axis
  timeUnits : Option Uom
  epsg : Option (List Char)
  metadata : List (List Char × List Char)

/-- `math.isclose(a, b, abs_tol = t)`, the relative tolerance being 1e-9 -/
def isclose (a b t : ℝ) : Prop := |a - b| ≤ max (1e-9 * max |a| |b|) t

/-- crs.py:169-170 -/
def Crs.rotated (c : Crs) : Prop := ¬ isclose c.deg 0 1e-8 ∧ ¬ isclose c.deg 360 1e-8

/-- olio/vector_utilities.py:314-331 `rotation_matrix_3d_axial` for axis 2, applied to a vector (`rotate_vector`,
olio/vector_utilities.py:380-382) -/
def rotate (angle : ℝ) (p : Pt) : Pt :=
  let r := angle * Real.pi / 180
  (Real.cos r * p.1 + -Real.sin r * p.2.1, Real.sin r * p.1 + Real.cos r * p.2.1, p.2.2)

/-- crs.py:172-175: application of `rotation_matrix` -/
def Crs.applyRotation (c : Crs) (p : Pt) : Pt := if rightHandedXy c.axis then rotate (-c.deg) p else rotate c.deg p

/-- crs.py:172-175: application of `reverse_rotation_matrix` -/
def Crs.applyReverse (c : Crs) (p : Pt) : Pt := if rightHandedXy c.axis then rotate c.deg p else rotate (-c.deg) p

/-- crs.py:179-181 `null_transform` -/
def Crs.nullTransform (c : Crs) : Prop :=
  isclose c.xOff 0 1e-8 ∧ isclose c.yOff 0 1e-8 ∧ isclose c.zOff 0 1e-8 ∧ ¬ c.rotated

/-- crs.py:193-213 `global_to_local` -/
def Crs.globalToLocal (c : Crs) (p : Pt) (gz : Bool) (gaxis : Axis) : Pt :=
  let (x, y, z) := p
  let (x, y) := if c.axis ≠ gaxis then switchAxes gaxis c.axis (x, y) else (x, y)
  let x := if c.xOff ≠ 0 then x - c.xOff else x
  let y := if c.yOff ≠ 0 then y - c.yOff else y
  let z := if gz ≠ c.zIncDown then -z else z
  let z := if c.zOff ≠ 0 then z - c.zOff else z
  if c.rotated then c.applyRotation (x, y, z) else (x, y, z)

/-- crs.py:239-261 `local_to_global` -/
def Crs.localToGlobal (c : Crs) (p : Pt) (gz : Bool) (gaxis : Axis) : Pt :=
  let (x, y, z) := if c.rotated then c.applyReverse p else p
  let x := if c.xOff ≠ 0 then x + c.xOff else x
  let y := if c.yOff ≠ 0 then y + c.yOff else y
  let z := if c.zOff ≠ 0 then z + c.zOff else z
  let z := if gz ≠ c.zIncDown then -z else z
  let (x, y) := if c.axis ≠ gaxis then switchAxes c.axis gaxis (x, y) else (x, y)
  (x, y, z)

/-- crs.py:216-237 `global_to_local_array`: whole array operations one after another -/
def Crs.globalToLocalArray (c : Crs) (ps : List Pt) (gz : Bool) (gaxis : Axis) : List Pt :=
  let ps := if c.axis ≠ gaxis then switchAxesArray gaxis c.axis ps else ps
  let ps := if c.xOff ≠ 0 then ps.map fun p => (p.1 - c.xOff, p.2.1, p.2.2) else ps
  let ps := if c.yOff ≠ 0 then ps.map fun p => (p.1, p.2.1 - c.yOff, p.2.2) else ps
  let ps := if gz ≠ c.zIncDown then ps.map fun p => (p.1, p.2.1, -p.2.2) else ps
  let ps := if c.zOff ≠ 0 then ps.map fun p => (p.1, p.2.1, p.2.2 - c.zOff) else ps
  if c.rotated then ps.map c.applyRotation else ps

/-- crs.py:263-284 `local_to_global_array` -/
def Crs.localToGlobalArray (c : Crs) (ps : List Pt) (gz : Bool) (gaxis : Axis) : List Pt :=
  let ps := if c.rotated then ps.map c.applyReverse else ps
  let ps := if c.xOff ≠ 0 then ps.map fun p => (p.1 + c.xOff, p.2.1, p.2.2) else ps
  let ps := if c.yOff ≠ 0 then ps.map fun p => (p.1, p.2.1 + c.yOff, p.2.2) else ps
  let ps := if c.zOff ≠ 0 then ps.map fun p => (p.1, p.2.1, p.2.2 + c.zOff) else ps
  let ps := if gz ≠ c.zIncDown then ps.map fun p => (p.1, p.2.1, -p.2.2) else ps
  if c.axis ≠ gaxis then switchAxesArray c.axis gaxis ps else ps

/-- crs.py:286-288 `has_same_epsg_code`: an absent or empty code matches anything -/
def sameEpsg (c d : Crs) : Prop :=
  c.epsg = none ∨ c.epsg = some [] ∨ d.epsg = none ∨ d.epsg = some [] ∨ c.epsg = d.epsg

/-- crs.py:558-571 `_matching_extra_metadata` -/
def sameMetadata (c d : Crs) : Prop := c.metadata.length = d.metadata.length ∧ ∀ i ∈ c.metadata, i ∈ d.metadata

/-- crs.py:38-44 `resqml_type`: a time crs or a depth crs (an empty string of time units counts as none) -/
def Crs.isTime (c : Crs) : Bool := match c.timeUnits with
  | none => false
  | some u => decide (u ≠ [])

/-- crs.py:290-323 `is_equivalent` -/
def isEquivalent (c d : Crs) : Prop :=
  if c.ident = d.ident then True
  else if c.uuid = d.uuid then True
  else if c.isTime ≠ d.isTime then False
  else if c.xyUnits ≠ d.xyUnits ∨ c.zUnits ≠ d.zUnits then False
  else if c.zIncDown ≠ d.zIncDown then False
  else if c.timeUnits ≠ d.timeUnits then False
  else if c.axis ≠ d.axis then False
  else if ¬ sameEpsg c d then False
  else if ¬ sameMetadata c d then False
  else if c.nullTransform ∧ d.nullTransform then True
  else isclose c.xOff d.xOff 1e-4 ∧ isclose c.yOff d.yOff 1e-4 ∧ isclose c.zOff d.zOff 1e-4 ∧
    isclose c.rotation d.rotation 1e-4

/-- what `convert_lengths` and `convert_times` need to know: the unit data and the units of length and of time; for `convertUnits` (crs.py:339-346) -/
structure Uoms where
  data : Data
  length : List Uom
  time : List Uom

/-- the units of z values of a crs for conversion; for `convertUnits` (crs.py:339-346) -/
def Crs.vertical (c : Crs) : Uom := if c.isTime then c.timeUnits.getD [] else c.zUnits

/-- crs.py:339-346: conversion of units of a point -/
def convertUnits (U : Uoms) (c d : Crs) (p : Pt) : Res Pt :=
  match convert U.data p.1 c.xyUnits d.xyUnits (some U.length) true with
  | .error e => .error e
  | .ok x => match convert U.data p.2.1 c.xyUnits d.xyUnits (some U.length) true with
    | .error e => .error e
    | .ok y => match convert U.data p.2.2 c.vertical d.vertical (some (if c.isTime then U.time else U.length)) true with
      | .error e => .error e
      | .ok z => .ok (x, y, z)

/-- crs.py:325-349 `convert_to` -/
def convertTo (U : Uoms) (c d : Crs) (p : Pt) : Res Pt :=
  if c.ident = d.ident then .ok p
  else if c.isTime ≠ d.isTime then .error .assertion
  else match convertUnits U c d (c.localToGlobal p true .en) with
    | .error e => .error e
    | .ok q => .ok (d.globalToLocal q true .en)

/-- crs.py:376-400 `convert_from` -/
def convertFrom (U : Uoms) (c d : Crs) (p : Pt) : Res Pt :=
  if c.ident = d.ident then .ok p
  else if c.isTime ≠ d.isTime then .error .assertion
  else match convertUnits U d c (d.localToGlobal p true .en) with
    | .error e => .error e
    | .ok q => .ok (c.globalToLocal q true .en)

/-- conversion of units of all the points of an array, or an exception; a simplification is that the code converts the
columns of the array (or, when both systems have one unit throughout, the whole array) by one factor each; for `convertArrayTo` (crs.py:351-374) -/
def convertUnitsArray (U : Uoms) (c d : Crs) : List Pt → Res (List Pt)
  | [] => .ok []
  | p :: ps => match convertUnits U c d p with
    | .error e => .error e
    | .ok q => match convertUnitsArray U c d ps with
      | .error e => .error e
      | .ok qs => .ok (q :: qs)

/-- crs.py:351-374 `convert_array_to` -/
def convertArrayTo (U : Uoms) (c d : Crs) (ps : List Pt) : Res (List Pt) :=
  if isEquivalent c d then .ok ps
  else if c.isTime ≠ d.isTime then .error .assertion
  else match convertUnitsArray U c d (c.localToGlobalArray ps true .en) with
    | .error e => .error e
    | .ok qs => .ok (d.globalToLocalArray qs true .en)

end

end Verif.Crs
