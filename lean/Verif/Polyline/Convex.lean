import Verif.Polyline.Model

/-!
# Model: convexity, direction, outward normals and area of closed polylines

`resqpy/lines/_polyline.py:301-346, 394-407, 796-806`, `resqpy/crs.py:183-186`.  The extra metadata is represented by two entries,
`is_convex` and `is_clockwise`, either of which may be missing; a text there counts as true when it is 'true' in any case, else as false.
-/

namespace Verif.Polyline
open Verif.Py
open Verif.Wells.Survey (V3)
open Verif.Rotate (length unitVector)
open Verif.Plane (areaOfTriangle)
open Classical

noncomputable section

/-- the entries of the extra metadata; for `Line.isConvex` (lines/_polyline.py:301-330) -/
structure Meta where
  convex : Option Bool
  clockwise : Option Bool

/-- vector_utilities.py:529-536 `clockwise` -/
def cw (a b c : V3) : ℝ := (c 0 - a 0) * (b 1 - a 1) - (c 1 - a 1) * (b 0 - a 0)

/-- `coordinates[node - k]` for `node < n`: a negative index counts from the end; lines/_polyline.py:316, 803 -/
def Line.back (l : Line) (node k : Nat) : V3 := l.c ((node + l.n - k) % l.n)

/-- lines/_polyline.py:316: the turn at a node -/
def Line.turn (l : Line) (node : Nat) : ℝ := cw (l.back node 2) (l.back node 1) (l.c node)

/-- loop of `is_convex`, lines/_polyline.py:315-323: `result` and `cw_bool` after it -/
def scanTurns : List ℝ → Option Bool → Bool × Option Bool
  | [], b => (true, b)
  | t :: ts, b =>
    if t = 0 then scanTurns ts b
    else
      match b with
      | none => scanTurns ts (some (decide (t > 0)))
      | some b => if b = decide (t > 0) then scanTurns ts (some b) else (false, some b)

/-- lines/_polyline.py:309-328: the result, and the direction which is noted if it is true -/
def Line.findConvex (l : Line) : Bool × Option Bool :=
  if l.n < 3 then (false, none)
  else
    let r := scanTurns ((List.range l.n).map l.turn) none
    match r.2 with
    | none => (false, none)
    | some b => if r.1 then (true, some b) else (false, none)

/-- lines/_polyline.py:301-330 `is_convex`, with the metadata afterwards -/
def Line.isConvex (l : Line) (m : Meta) (trust : Bool) : Bool × Meta :=
  if l.closed = false then (false, m)
  else
    match trust, m.convex with
    | true, some b => (b, m)
    | _, _ =>
      let r := l.findConvex
      (r.1, { convex := some r.1, clockwise := match r.2 with | some b => some b | none => m.clockwise })

/-- crs.py:44: the axis orders -/
inductive AxisOrder
  | eastingNorthing | northingEasting | westingSouthing | southingWesting | northingWesting | westingNorthing
deriving DecidableEq

/-- crs.py:183-186 `is_right_handed_xy` -/
def AxisOrder.rightHanded : AxisOrder → Bool
  | .northingEasting => true
  | .southingWesting => true
  | .westingNorthing => true
  | _ => false

/-- `np.mean(self.coordinates, axis = 0)`, lines/_polyline.py:338, 800 -/
def Line.mean (l : Line) : V3 := meanOf ((List.range l.n).map l.c)

/-- lines/_polyline.py:332-346 `is_clockwise`, with the metadata afterwards -/
def Line.isClockwise (l : Line) (m : Meta) (trust : Bool) (axes : AxisOrder) : Res (Bool × Meta) :=
  if l.closed = false then .error .assertion
  else
    match trust, m.clockwise with
    | true, some b => .ok (b, m)
    | _, _ =>
      if l.n < 2 then .error .index
      else
        let result := decide (cw l.mean (l.c 0) (l.c 1) > 0)
        let result := if axes.rightHanded then !result else result
        .ok (result, { m with clockwise := some result })

/-- lines/_polyline.py:397-402: before the sense is known -/
def Line.leftNormal (l : Line) (i j : Nat) : V3 :=
  let u := unitVector (upTo true (l.c j - l.c i))
  ![-u 1, u 0, 0]

/-- lines/_polyline.py:394-407 `segment_normal`, with the metadata afterwards -/
def Line.segmentNormal (l : Line) (m : Meta) (axes : AxisOrder) (i : Nat) : Res (V3 × Meta) :=
  match l.successor i with
  | .error e => .error e
  | .ok j =>
    match l.isClockwise m true axes with
    | .error e => .error e
    | .ok (b, m') => .ok (if b then l.leftNormal i j else -l.leftNormal i j, m')

/-- lines/_polyline.py:799-803: the area of a polygon which is taken to be convex -/
def Line.fanArea (l : Line) : ℝ := ((List.range l.n).map fun node => areaOfTriangle l.mean (l.back node 1) (l.c node)).sum

/-- lines/_polyline.py:796-820 `area`, with the metadata afterwards; `sampled` is the result of the sampling at 804-819 which is made when the
polygon is not found to be convex, and which is not modelled -/
def Line.area (l : Line) (m : Meta) (sampled : ℝ) : Res (ℝ × Meta) :=
  if l.closed = false then .error .assertion
  else
    let r := l.isConvex m true
    .ok (if r.1 then l.fanArea else sampled, r.2)

end

end Verif.Polyline
