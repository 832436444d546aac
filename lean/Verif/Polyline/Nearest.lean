import Verif.Polyline.Convex

/-!
# Model: nearest pieces, crossings and normalised coordinates of polylines

`resqpy/lines/_polyline.py:489-758`.
-/

namespace Verif.Polyline
open Verif.Py
open Verif.Wells.Survey (V3)
open Verif.Rotate (length unitVector)
open Verif.Geom (distToSegment snappedToSegment lineLine)
open Classical

noncomputable section

/-- `coordinates[i, :2]`; for `Line.closest` (lines/_polyline.py:520-551) -/
def pt (v : V3) : ℝ × ℝ := (v 0, v 1)

/-- lines/_polyline.py:540-543, 546-549: keep the smaller -/
def keepLess (best : Nat × ℝ) (seg : Nat) (d : ℝ) : Nat × ℝ := if d < best.2 then (seg, d) else best

/-- loop of `closest_segment_and_distance_to_point_xy`, lines/_polyline.py:538-543: segments 1 to `k` -/
def Line.closestTo (l : Line) (p : ℝ × ℝ) : Nat → Nat × ℝ
  | 0 => (0, distToSegment p (pt (l.c 0)) (pt (l.c 1)))
  | k + 1 => keepLess (l.closestTo p k) (k + 1) (distToSegment p (pt (l.c (k + 1))) (pt (l.c (k + 2))))

/-- lines/_polyline.py:520-551 `closest_segment_and_distance_to_point_xy` -/
def Line.closest (l : Line) (p : ℝ × ℝ) : Res (Nat × ℝ) :=
  if l.n < 2 then .error .index
  else
    let r := l.closestTo p (l.n - 2)
    .ok (if l.closed then keepLess r (l.n - 1) (distToSegment p (pt (l.c (l.n - 1))) (pt (l.c 0))) else r)

/-- lines/_polyline.py:563-566, 576-578: the nodes `coordinates[segment]` and `coordinates[segment + 1]`, where the last index becomes -1 -/
def Line.ends (l : Line) (seg : Nat) : Res (V3 × V3) :=
  if seg + 1 = l.n then .ok (l.c (l.n - 1), l.c 0)
  else if seg + 1 < l.n then .ok (l.c seg, l.c (seg + 1))
  else .error .index

/-- lines/_polyline.py:553-566 `point_snapped_to_segment_xy`; the inner `none` is for the pair of `None` -/
def Line.snapped (l : Line) (seg : Nat) (p : ℝ × ℝ) : Res (Option (ℝ × ℝ)) :=
  match l.ends seg with
  | .ok (a, b) => .ok (snappedToSegment p (pt a) (pt b))
  | .error e => .error e

/-- lines/_polyline.py:579-586: along the axis with the greater range; division by zero gives not-a-number or infinity, for which the assertion
which follows fails -/
def fractionAlong (a b v : ℝ) : Res ℝ :=
  if ¬ ((v - a) * (v - b) ≤ 0) then .error .assertion
  else if b - a = 0 then .error .assertion
  else
    let f := (v - a) / (b - a)
    if 0 ≤ f ∧ f ≤ 1 then .ok f else .error .assertion

/-- lines/_polyline.py:568-586 `segment_xyz_from_xy` -/
def Line.segmentXyz (l : Line) (seg : Nat) (x y : ℝ) : Res V3 :=
  match l.ends seg with
  | .error e => .error e
  | .ok (a, b) =>
    match (if |b 0 - a 0| > |b 1 - a 1| then fractionAlong (a 0) (b 0) x else fractionAlong (a 1) (b 1) y) with
    | .error e => .error e
    | .ok f => .ok ((1 - f) • a + f • b)

/-- lines/_polyline.py:505-516: intersection of a (half) bounded line with one segment -/
def Line.meet (l : Line) (a b : ℝ × ℝ) (half : Bool) (seg : Nat) : Option (ℝ × ℝ) :=
  lineLine a.1 a.2 b.1 b.2 (l.c seg 0) (l.c seg 1) (l.c (l.next seg) 0) (l.c (l.next seg) 1) true half

/-- loop of `first_line_intersection`, lines/_polyline.py:504-518, over a list of segments -/
def Line.firstOf (l : Line) (a b : ℝ × ℝ) (half : Bool) : List Nat → Option (Nat × ℝ × ℝ)
  | [] => none
  | s :: ss =>
    match l.meet a b half s with
    | some q => some (s, q.1, q.2)
    | none => l.firstOf a b half ss

/-- lines/_polyline.py:489-518 `first_line_intersection` -/
def Line.firstIntersection (l : Line) (a b : ℝ × ℝ) (half : Bool) : Option (Nat × ℝ × ℝ) := l.firstOf a b half (List.range l.segs)

/-- lines/_polyline.py:614-615: a crossing is added unless it is close to the last of them -/
def addCrossing (cs : List (ℝ × ℝ)) : Option (ℝ × ℝ) → List (ℝ × ℝ)
  | none => cs
  | some q =>
    match cs.getLast? with
    | some r => if isClose q.1 r.1 ∧ isClose q.2 r.2 then cs else cs ++ [q]
    | none => cs ++ [q]

/-- lines/_polyline.py:588-617 `xy_crossings` -/
def Line.crossings (l other : Line) : List (ℝ × ℝ) :=
  ((List.range l.segs).flatMap fun i => (List.range other.segs).map fun j => other.meet (pt (l.c i)) (pt (l.c (l.next i))) false j).foldl addCrossing []

/-! ## Normalised coordinates -/

/-- the modes; lines/_polyline.py:619-758 -/
inductive Mode
  | square | circle | perimeter
deriving DecidableEq

/-- lines/_polyline.py:649-656: square mode, one axis -/
def squareNorm (x c p : ℝ) : ℝ := if p = c then 0.5 else 0.5 + 0.5 * (x - c) / |p - c|

/-- lines/_polyline.py:660-661, 665-666, 678-681: the fraction of the way from the centre to the edge -/
def radial (d dp : ℝ × ℝ) : ℝ := if |dp.1| > |dp.2| then d.1 / dp.1 else d.2 / dp.2

/-- lines/_polyline.py:660-669: the angle -/
def bearing (d dp : ℝ × ℝ) : ℝ :=
  if |dp.1| > |dp.2| then Real.arctan (d.2 / d.1) + (if d.1 < 0 then Real.pi else 0)
  else Real.pi / 2 - Real.arctan (d.1 / d.2) + (if d.2 < 0 then Real.pi else 0)

/-- lines/_polyline.py:671-675: the angle as a fraction of a turn -/
def turnFraction (theta : ℝ) : ℝ :=
  let t := theta / (2 * Real.pi)
  if t < 0 then t + 1 else if t > 1 then t - 1 else t

/-- lines/_polyline.py:682-687: distance along the edge; the segment and the lengths exist -/
def Line.perimeterFraction (l : Line) (seg : Nat) (p : ℝ × ℝ) : Res ℝ :=
  match l.lengthTo true seg, l.fullLength true with
  | .ok a, .ok b => .ok ((a + length ![p.1 - l.c seg 0, p.2 - l.c seg 1, 0]) / b)
  | .error e, _ => .error e
  | _, .error e => .error e

/-- lines/_polyline.py:641-688: `normalised_xy` after the centre is known -/
def Line.normalisedAbout (l : Line) (c : ℝ × ℝ) (x y : ℝ) (mode : Mode) : Res (ℝ × ℝ) :=
  if c = (x, y) then .ok (if mode = .square then (0.5, 0.5) else (0, 0))
  else
    match l.firstIntersection c (x, y) true with
    | none => .error .assertion
    | some (seg, px, py) =>
      let d := (x - c.1, y - c.2)
      let dp := (px - c.1, py - c.2)
      match mode with
      | .square => .ok (squareNorm x c.1 px, squareNorm y c.2 py)
      | .circle => .ok (radial d dp * radial d dp, turnFraction (bearing d dp))
      | .perimeter =>
        match l.perimeterFraction seg (px, py) with
        | .ok f => .ok (radial d dp * radial d dp, f)
        | .error e => .error e

/-- lines/_polyline.py:619-688 `normalised_xy`; the changes to metadata and cached centre are left out -/
def Line.normalised (l : Line) (m : Meta) (cached : Option V3) (x y : ℝ) (mode : Mode) : Res (ℝ × ℝ) :=
  if (l.isConvex m true).1 = false then .error .assertion
  else
    match l.balancedCentre cached false 20 true false with
    | .error e => .error e
    | .ok (c, _) => l.normalisedAbout (pt c) x y mode

/-- lines/_polyline.py:739-746: square mode, one axis -/
def squareBack (c p f : ℝ) : ℝ := if p = c then c else c + f * (p - c)

/-- lines/_polyline.py:754, 757: from the centre towards a point -/
def towards (c p : ℝ × ℝ) (f : ℝ) : ℝ × ℝ := (c.1 + f * (p.1 - c.1), c.2 + f * (p.2 - c.2))

/-- lines/_polyline.py:724-758: `denormalised_xy` after the centre is known.  In circle mode, when no segment is met, `None` is stored in an array
of floats as not-a-number: an error here. -/
def Line.denormalisedAbout (l : Line) (c : ℝ × ℝ) (u v : ℝ) : Mode → Res (ℝ × ℝ)
  | .square =>
    if u = 0.5 ∧ v = 0.5 then .ok c
    else
      match l.firstIntersection c (u - 0.5 + c.1, v - 0.5 + c.2) true with
      | none => .error .assertion
      | some (_, px, py) =>
        let f := 2 * max |u - 0.5| |v - 0.5|
        .ok (squareBack c.1 px f, squareBack c.2 py f)
  | .perimeter =>
    match l.interpolated (if v = 1 then 0 else v) false with
    | .error e => .error e
    | .ok q => .ok (towards c (pt q) (Real.sqrt u))
  | .circle =>
    match l.firstIntersection c (c.1 + Real.cos (2 * Real.pi * v), c.2 + Real.sin (2 * Real.pi * v)) true with
    | none => .error .value
    | some (_, px, py) => .ok (towards c (px, py) (Real.sqrt u))

/-- lines/_polyline.py:690-758 `denormalised_xy`; the changes to metadata and cached centre are left out -/
def Line.denormalised (l : Line) (m : Meta) (cached : Option V3) (u v : ℝ) (mode : Mode) : Res (ℝ × ℝ) :=
  if ¬ (0 ≤ u ∧ u ≤ 1 ∧ 0 ≤ v ∧ v ≤ 1) then .error .assertion
  else if (l.isConvex m true).1 = false then .error .assertion
  else
    match l.balancedCentre cached false 20 true false with
    | .error e => .error e
    | .ok (c, _) => l.denormalisedAbout (pt c) u v mode

end

end Verif.Polyline
