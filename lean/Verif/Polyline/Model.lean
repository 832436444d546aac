import Verif.Plane.Measure
import Verif.Geom.PropsPlane

/-!
# Model: polylines

`resqpy/lines/_polyline.py:140-760, 796-806, 941-951`.  Numbers are reals; the coordinates are held by node number.  Reading from and writing
to files, titles and the uuids are left out.
-/

namespace Verif.Polyline
open Verif.Py
open Verif.Wells.Survey (V3)
open Verif.Rotate (length unitVector)
open Classical

noncomputable section

/-- lines/_polyline.py: the attributes `coordinates` (rows of 3 numbers; `n` of them) and `isclosed` -/
structure Line where
  n : Nat
  c : Nat → V3
  closed : Bool

/-- lines/_polyline.py:412-414, 472-474: number of segments -/
def Line.segs (l : Line) : Nat := if l.closed then l.n else l.n - 1

/-- lines/_polyline.py:941-951 `_successor`; the index is not negative -/
def Line.successor (l : Line) (i : Nat) : Res Nat :=
  if l.closed then
    if i < l.n then .ok (if i + 1 = l.n then 0 else i + 1) else .error .assertion
  else if i + 1 < l.n then .ok (i + 1) else .error .assertion

/-- `coordinates[:, :2]` and `coordinates[:, :3]`; for `Line.segmentLength` (lines/_polyline.py:378-386) -/
def upTo (inXy : Bool) (v : V3) : V3 := if inXy then ![v 0, v 1, 0] else v

/-- lines/_polyline.py:378-386 `segment_length` -/
def Line.segmentLength (l : Line) (i : Nat) (inXy : Bool) : Res ℝ :=
  match l.successor i with
  | .ok j => .ok (length (upTo inXy (l.c j - l.c i)))
  | .error e => .error e

/-- lines/_polyline.py:388-392 `segment_midpoint` -/
def Line.segmentMidpoint (l : Line) (i : Nat) : Res V3 :=
  match l.successor i with
  | .ok j => .ok ((0.5 : ℝ) • (l.c i + l.c j))
  | .error e => .error e

/-- loop of `full_length`, lines/_polyline.py:419-420: the first `k` segments -/
def Line.lengthTo (l : Line) (inXy : Bool) : Nat → Res ℝ
  | 0 => .ok 0
  | k + 1 =>
    match l.lengthTo inXy k, l.segmentLength k inXy with
    | .ok a, .ok b => .ok (a + b)
    | .error e, _ => .error e
    | _, .error e => .error e

/-- lines/_polyline.py:409-421 `full_length` -/
def Line.fullLength (l : Line) (inXy : Bool) : Res ℝ := l.lengthTo inXy l.segs

/-- `(segment + 1) % len(coordinates)`; lines/_polyline.py:443, 481, 505, 603 -/
def Line.next (l : Line) (i : Nat) : Nat := (i + 1) % l.n

/-- loop of `interpolated_point`, lines/_polyline.py:435-444; `fuel` bounds the number of passes: with as much as there are segments, plus one,
it is not used up, since `segment_length` fails after the last segment -/
def Line.walk (l : Line) (inXy : Bool) : Nat → Nat → ℝ → Res V3
  | 0, _, _ => .error .assertion
  | fuel + 1, i, target =>
    match l.segmentLength i inXy with
    | .error e => .error e
    | .ok len =>
      if target > len ∨ len = 0 then l.walk inXy fuel (i + 1) (target - len)
      else .ok ((target / len) • l.c (l.next i) + (1 - target / len) • l.c i)

/-- `math.isclose` with default tolerances; lines/_polyline.py:430, 432, 614 -/
def isClose (a b : ℝ) : Prop := |a - b| ≤ 1e-9 * max |a| |b|

/-- lines/_polyline.py:423-444 `interpolated_point`; there is at least one node -/
def Line.interpolated (l : Line) (f : ℝ) (inXy : Bool) : Res V3 :=
  if ¬ (0 ≤ f ∧ f ≤ 1) then .error .assertion
  else if isClose f 0 then .ok (l.c 0)
  else if isClose f 1 then .ok (if l.closed then l.c 0 else l.c (l.n - 1))
  else
    match l.fullLength inXy with
    | .error e => .error e
    | .ok full => l.walk inXy (l.segs + 1) 0 (f * full)

/-- lines/_polyline.py:457-460: the fraction after a step -/
def stepped (f step : ℝ) : ℝ := if f + step > 1 then 1 else f + step

/-- loop of `equidistant_points`, lines/_polyline.py:456-460 -/
def Line.sample (l : Line) (inXy : Bool) (step : ℝ) : Nat → ℝ → Res (List V3)
  | 0, _ => .ok []
  | k + 1, f =>
    match l.interpolated f inXy, l.sample inXy step k (stepped f step) with
    | .ok p, .ok r => .ok (p :: r)
    | .error e, _ => .error e
    | _, .error e => .error e

/-- lines/_polyline.py:446-461 `equidistant_points` -/
def Line.equidistant (l : Line) (n : Nat) (inXy : Bool) : Res (List V3) :=
  if n ≤ 1 then .error .assertion
  else l.sample inXy (if l.closed then 1 / (n : ℝ) else 1 / ((n : ℝ) - 1)) n 0

/-- loop of the weighted mode of `balanced_centre`, lines/_polyline.py:478-484: the first `k` segments -/
def Line.weighted (l : Line) (inXy : Bool) : Nat → V3
  | 0 => 0
  | k + 1 =>
    let p1 := upTo inXy (l.c k)
    let p2 := upTo inXy (l.c (l.next k))
    l.weighted inXy k + length (p2 - p1) • (p1 + p2)

/-- the mean of the rows of an array, `np.mean(…, axis = 0)`; for `Line.computedCentre` (lines/_polyline.py:470-471) -/
def meanOf (ps : List V3) : V3 := (1 / (ps.length : ℝ)) • ps.sum

/-- lines/_polyline.py:468-485: the centre, when it is not cached; division by zero gives not-a-number in Python and zero here -/
def Line.computedCentre (l : Line) (sampled : Bool) (n : Nat) (inXy : Bool) : Res V3 :=
  if sampled then
    match l.equidistant n inXy with
    | .ok ps => .ok (meanOf ps)
    | .error e => .error e
  else
    match l.fullLength inXy with
    | .ok full => .ok ((1 / (2 * full)) • l.weighted inXy l.segs)
    | .error e => .error e

/-- lines/_polyline.py:463-487 `balanced_centre`: the result, and the attribute `centre` afterwards -/
def Line.balancedCentre (l : Line) (cached : Option V3) (sampled : Bool) (n : Nat) (cache inXy : Bool) : Res (V3 × Option V3) :=
  match cache, cached with
  | true, some c => .ok (c, some c)
  | _, _ =>
    match l.computedCentre sampled n inXy with
    | .ok c => .ok (c, if cache then some c else cached)
    | .error e => .error e

/-- lines/_polyline.py:140-176 `from_scaled_polyline`: coordinates and closure; with the cached centre of the original -/
def Line.scaled (l : Line) (cached : Option V3) (scaling : ℝ) : Res Line :=
  match l.balancedCentre cached false 20 true false with
  | .ok (o, _) => .ok { l with c := fun i => scaling • (l.c i - o) + o }
  | .error e => .error e

/-- assignment to the first or last row; lines/_polyline.py:221-224, with points of three numbers -/
def replaced (p : Option V3) (v : V3) : V3 := p.getD v

/-- lines/_polyline.py:179-227 `from_trimmed_polyline`; segment numbers are not negative -/
def Line.trimmed (l : Line) (s e : Nat) (startXyz endXyz : Option V3) : Res Line :=
  if ¬ (s ≤ e) then .error .assertion
  else if ¬ (e + 1 < l.n) then .error .assertion
  else .ok { n := e + 2 - s
             c := fun i => if i = e + 1 - s then replaced endXyz (l.c (s + i))
                           else if i = 0 then replaced startXyz (l.c (s + i)) else l.c (s + i)
             closed := false }

/-- lines/_polyline.py:230-259 `for_regular_polygon` -/
def regularPolygon (n : Nat) (radius : ℝ) (centre : V3) : Res Line :=
  if ¬ (3 ≤ n ∧ 0 < radius) then .error .assertion
  else .ok { n := n
             c := fun i => ![radius * Real.sin (i * 2 * Real.pi / n), radius * Real.cos (i * 2 * Real.pi / n), 0] + centre
             closed := true }

end

end Verif.Polyline
