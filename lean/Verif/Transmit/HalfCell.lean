import Verif.Plane.Measure

/-!
# Model: half cell transmissibilities

`resqpy/olio/transmission.py:17-363, 1151-1181`.  Numbers are real numbers and points are defined; not-a-number in the result
is `none`.  Arrays are functions of the indices of a cell.
-/

namespace Verif.Transmit
open Verif.Py Verif.Plane Verif.Rotate Verif.Wells.Survey

noncomputable section

/-- transmission.py:1151-1181 `projected_tri_area`, for one triangle; the index of the result is the axis looked along -/
def projectedTriArea (pa pb pc : V3) : V3 := fun xyz =>
  let len := fun v : V3 => Real.sqrt (v (xyz + 1) * v (xyz + 1) + v (xyz + 2) * v (xyz + 2))
  heron (len (pb - pa)) (len (pc - pb)) (len (pa - pc))

/-- `np.sum(a * b, axis = -1)`, as at transmission.py:259 -/
def dot3 (a b : V3) : ℝ := a 0 * b 0 + a 1 * b 1 + a 2 * b 2

/-- transmission.py:259-267, 299-306, 337-344: for one face, from the half axis vector, the projected areas and the permeability -/
def faceT (tol perm : ℝ) (half area : V3) : Option ℝ :=
  if dot3 half half < tol * tol then none else some (perm * dot3 half area / dot3 half half)

/-- `0.125 * np.abs(a + b + c + d)`, as at transmission.py:246 -/
def halfAxis (a b c d : V3) : V3 := fun x => 0.125 * |a x + b x + c x + d x|

/-- the points of a grid: of shape `(nk + k_gaps + 1, nj + 1, ni + 1)`, or, with split pillars, by pillar, together with the
mapping from the corners of a column to pillars (transmission.py:207-233) -/
inductive Points where
  | plain (p : Nat → Nat → Nat → V3)
  | split (p : Nat → Nat → V3) (pfc : Nat → Nat → Nat → Nat → Nat)

/-- transmission.py:226-233, 245-250, 252-258 without split pillars: half axis vector and areas of the K faces; `km` and `kp` are
the indices of the points at the top and base of the layer -/
def plainK (p : Nat → Nat → Nat → V3) (km kp j i : Nat) : V3 × V3 × V3 :=
  let e := fun j i => p kp j i - p km j i
  let area := fun k => projectedTriArea (p k j i) (p k j (i + 1)) (p k (j + 1) (i + 1)) +
    projectedTriArea (p k j i) (p k (j + 1) (i + 1)) (p k (j + 1) i)
  (halfAxis (e (j + 1) (i + 1)) (e (j + 1) i) (e j (i + 1)) (e j i), area km, area kp)

/-- transmission.py:232, 290-298 without split pillars or gaps: the J faces -/
def plainJ (p : Nat → Nat → Nat → V3) (k j i : Nat) : V3 × V3 × V3 :=
  let e := fun k i => p k (j + 1) i - p k j i
  let area := fun j => projectedTriArea (p k j i) (p k j (i + 1)) (p (k + 1) j (i + 1)) +
    projectedTriArea (p k j i) (p (k + 1) j (i + 1)) (p (k + 1) j i)
  (halfAxis (e (k + 1) (i + 1)) (e (k + 1) i) (e k (i + 1)) (e k i), area j, area (j + 1))

/-- transmission.py:233, 328-336 without split pillars or gaps: the I faces -/
def plainI (p : Nat → Nat → Nat → V3) (k j i : Nat) : V3 × V3 × V3 :=
  let e := fun k j => p k j (i + 1) - p k j i
  let area := fun i => projectedTriArea (p k j i) (p k (j + 1) i) (p (k + 1) (j + 1) i) +
    projectedTriArea (p k j i) (p (k + 1) (j + 1) i) (p (k + 1) j i)
  (halfAxis (e (k + 1) (j + 1)) (e (k + 1) j) (e k (j + 1)) (e k j), area i, area (i + 1))

/-- transmission.py:209, 217, 240-244, 252-258 with split pillars: the K faces -/
def splitK (p : Nat → Nat → V3) (c : Nat → Nat → Nat) (km kp : Nat) : V3 × V3 × V3 :=
  let e := fun jp ip => p kp (c jp ip) - p km (c jp ip)
  let area := fun k => projectedTriArea (p k (c 0 0)) (p k (c 0 1)) (p k (c 1 1)) + projectedTriArea (p k (c 0 0)) (p k (c 1 1)) (p k (c 1 0))
  (halfAxis (e 0 0) (e 0 1) (e 1 0) (e 1 1), area km, area kp)

/-- transmission.py:210-212, 218-219, 271-288 with split pillars: the J faces -/
def splitJ (p : Nat → Nat → V3) (c : Nat → Nat → Nat) (km kp : Nat) : V3 × V3 × V3 :=
  let e := fun k ip => p k (c 1 ip) - p k (c 0 ip)
  let area := fun jp => projectedTriArea (p km (c jp 0)) (p km (c jp 1)) (p kp (c jp 1)) +
    projectedTriArea (p km (c jp 0)) (p kp (c jp 1)) (p kp (c jp 0))
  (halfAxis (e kp 1) (e kp 0) (e km 1) (e km 0), area 0, area 1)

/-- transmission.py:213-215, 220-221, 309-326 with split pillars: the I faces -/
def splitI (p : Nat → Nat → V3) (c : Nat → Nat → Nat) (km kp : Nat) : V3 × V3 × V3 :=
  let e := fun k jp => p k (c jp 1) - p k (c jp 0)
  let area := fun ip => projectedTriArea (p km (c 0 ip)) (p km (c 1 ip)) (p kp (c 1 ip)) +
    projectedTriArea (p km (c 0 ip)) (p kp (c 1 ip)) (p kp (c 0 ip))
  (halfAxis (e kp 1) (e kp 0) (e km 1) (e km 0), area 0, area 1)

/-- the axes of a grid, in the order of the result (transmission.py:237-238) -/
inductive Axis where
  | K | J | I
  deriving DecidableEq

/-- the value for a property of cells; for `halfCellIrregular` (transmission.py:148-363) -/
abbrev CellArray := Nat → Nat → Nat → ℝ

/-- transmission.py:258-267, 299-306, 337-353, 355-359, 363 for one axis of one cell: minus (`false`) and plus face -/
def axisT (darcy tol perm : ℝ) (ntg : Option ℝ) (v : V3 × V3 × V3) (plus : Bool) : Option ℝ :=
  (faceT tol perm v.1 (if plus then v.2.2 else v.2.1)).map fun t => |darcy * (match ntg with | some n => t * n | none => t)|

/-- transmission.py:148-363 `half_cell_t_irregular`; `gaps` is `k_raw_index_array` of a grid with K gaps.  Without split pillars
but with K gaps the triangles for J faces are made from arrays of different shapes (293): AssertionError in 1169. -/
def halfCellIrregular (g : Points) (gaps : Option (Nat → Nat)) (perm : Axis → CellArray) (ntg : Option CellArray) (darcy tol : ℝ) :
    Res (Nat → Nat → Nat → Axis → Bool → Option ℝ) :=
  match g, gaps with
  | .plain _, some _ => .error .assertion
  | .plain p, none => .ok fun k j i axis plus =>
    match axis with
    | .K => axisT darcy tol (perm .K k j i) none (plainK p k (k + 1) j i) plus
    | .J => axisT darcy tol (perm .J k j i) (ntg.map fun n => n k j i) (plainJ p k j i) plus
    | .I => axisT darcy tol (perm .I k j i) (ntg.map fun n => n k j i) (plainI p k j i) plus
  | .split p pfc, gaps => .ok fun k j i axis plus =>
    let km := match gaps with | some raw => raw k | none => k
    match axis with
    | .K => axisT darcy tol (perm .K k j i) none (splitK p (pfc j i) km (km + 1)) plus
    | .J => axisT darcy tol (perm .J k j i) (ntg.map fun n => n k j i) (splitJ p (pfc j i) km (km + 1)) plus
    | .I => axisT darcy tol (perm .I k j i) (ntg.map fun n => n k j i) (splitI p (pfc j i) km (km + 1)) plus

/-- transmission.py:99-145 `half_cell_t_regular`; `d` holds the vectors of the axes of a cell.  Division by zero gives zero here,
not infinity or not-a-number. -/
def halfCellRegular (d : Axis → V3) (perm : Axis → CellArray) (ntg : Option CellArray) (darcy : ℝ) :
    Nat → Nat → Nat → Axis → ℝ := fun k j i axis =>
  let n := (ntg.map fun n => n k j i).getD 1
  let lk := length (d .K)
  let lj := length (d .J)
  let li := length (d .I)
  darcy * (match axis with
    | .K => perm .K k j i * (lj * li) / (0.5 * lk)
    | .J => n * perm .J k j i * (li * lk) / (0.5 * lj)
    | .I => n * perm .I k j i * (lk * lj) / (0.5 * li))

/-- transmission.py:60-65: the Darcy constant, from the length units if not given -/
def darcyFor (given : Option ℝ) (xyUnits zUnits : String) : Res ℝ :=
  match given with
  | some d => .ok d
  | none =>
    if xyUnits = "m" ∨ xyUnits.startsWith "ft" then
      if zUnits = xyUnits then .ok (if xyUnits = "m" then 8.527017e-5 else 1.127116e-3) else .error .assertion
    else .error .assertion

end

end Verif.Transmit
