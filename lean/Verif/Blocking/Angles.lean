import Verif.Blocking.Kh
import Mathlib.Analysis.SpecialFunctions.Trigonometric.Inverse

/-!
# Model: angles of intervals of blocked wells

`/repo/resqpy/well/_blocked_well.py` 1855-1908, 2174-2198, 2223-2352.  Numbers are exact real numbers; units of length are numbers of metres,
units being the same if these numbers are.  The vectors between centres of opposite faces of a cell are an argument.
-/

namespace Verif.Blocking
open Verif.Py

/-- for `dot` (vector_utilities.py:237-239) -/
abbrev Vec := Fin 3 → ℝ

/-- a coordinate reference system: units of x, y and of z, and whether z increases downwards; for `singleUom`, `refVector`
(_blocked_well.py:1864-1892) -/
structure CrsU where
  xy : ℝ
  z : ℝ
  zDown : Bool

/-- vector_utilities.py:237-239 dot_product -/
def dot (a b : Vec) : ℝ := a 0 * b 0 + a 1 * b 1 + a 2 * b 2

/-- vector_utilities.py:247-249 cross_product -/
def cross (a b : Vec) : Vec := ![a 1 * b 2 - a 2 * b 1, a 2 * b 0 - a 0 * b 2, a 0 * b 1 - a 1 * b 0]

/-- vector_utilities.py:252-254 naive_length -/
noncomputable def norm3 (v : Vec) : ℝ := Real.sqrt (dot v v)

open Classical in
/-- vector_utilities.py:75-83 unit_vector -/
noncomputable def unitVector (v : Vec) : Vec := if norm3 v = 0 then v else fun c => v c / norm3 v

open Classical in
/-- weights_and_measures `convert_lengths`, as used at _blocked_well.py:2327-2330 -/
noncomputable def convertZ (g : CrsU) (v : Vec) : Vec := if g.xy = g.z then v else ![v 0, v 1, v 2 * g.z / g.xy]

open Classical in
/-- _blocked_well.py:2223-2233 _single_uom_xyz, to the unit of z (2235-2238) -/
noncomputable def singleUom (c : CrsU) (p : Vec) : Vec := if c.xy = c.z then p else ![p 0 * c.xy / c.z, p 1 * c.xy / c.z, p 2]

/-- references for angles (_blocked_well.py:1897, 1902-1904) -/
inductive Ref
  | gravity | zDown | zPlus | kDown | kPlus | normalIj | normalIjDown | wellI
  deriving DecidableEq

/-- _blocked_well.py:1894-1908 __verify_angle_references -/
def verifyRefs (v : Ref) (a : Option Ref) : Res (Ref × Ref) :=
  if v = .wellI then .error .assertion
  else
    let v := if v = .gravity then .zDown else v
    let a := a.getD v
    .ok (v, if a = .gravity then .zDown else a)

/-- _blocked_well.py:1887-1891 and 1865-1869 the direction downwards -/
def down (g : CrsU) : Vec := if g.zDown then ![0, 0, 1] else ![0, 0, -1]

open Classical in
/-- for `refVector`: the direction is turned over (_blocked_well.py:1880-1886) -/
noncomputable def turnDown (g : CrsU) (r : Vec) : Vec :=
  if g.zDown then (if r 2 < 0 then fun c => -r c else r) else (if 0 < r 2 then fun c => -r c else r)

open Classical in
/-- for `refVector`: a horizontal or missing direction is replaced (_blocked_well.py:1887-1891) -/
noncomputable def notFlat (g : CrsU) (r : Vec) : Vec := if r 2 = 0 then down g else r

/-- _blocked_well.py:1855-1892 __get_ref_vector; `axes` are the vectors between centres of faces in the directions k, j, i; `kDown` whether k is
said to increase downwards -/
noncomputable def refVector (g : CrsU) (kDown : Bool) (axes : Fin 3 → Vec) : Ref → Option Vec
  | .wellI => none
  | .zPlus => some ![0, 0, 1]
  | .zDown => some (down g)
  | .kPlus => some (notFlat g (unitVector (convertZ g (axes 0))))
  | .kDown => some (notFlat g (if kDown then unitVector (convertZ g (axes 0)) else fun c => -unitVector (convertZ g (axes 0)) c))
  | .normalIjDown => some (notFlat g (turnDown g (unitVector (cross (convertZ g (axes 1)) (convertZ g (axes 2))))))
  | _ => some (notFlat g (unitVector (cross (convertZ g (axes 1)) (convertZ g (axes 2)))))

/-- `min(max(x, -1), 1)` (_blocked_well.py:2300, 2346) -/
noncomputable def clamp (x : ℝ) : ℝ := min (max x (-1)) 1

/-- the angles of an interval in degrees, with sines and cosines; for `angles` (_blocked_well.py:2274) -/
structure Full where
  anglv : ℝ
  sv : ℝ
  cv : ℝ
  angla : ℝ
  sa : ℝ
  ca : ℝ

/-- vector_utilities.py:20-27 radians_from_degrees; for `vertical`, `lateral` -/
noncomputable def radians (d : ℝ) : ℝ := d * Real.pi / 180

/-- vector_utilities.py:25-27 degrees_from_radians -/
noncomputable def degrees (r : ℝ) : ℝ := r * 180 / Real.pi

/-- _blocked_well.py:2326-2330 the direction of the interval -/
noncomputable def wellVector (ee : CrsU) (trajZDown : Option Bool) (g : CrsU) (entry exit : Vec) : Vec :=
  let v := unitVector fun c => singleUom ee exit c - singleUom ee entry c
  if trajZDown.isSome ∧ trajZDown ≠ some g.zDown then ![v 0, v 1, -v 2] else v

/-- _blocked_well.py:2317-2352 __get_anglv_for_interval: inclination, its sine and cosine; `given` from a property of the well -/
noncomputable def vertical (given : Option ℝ) (g : CrsU) (vector ref : Vec) : ℝ × ℝ × ℝ :=
  match given with
  | some d => (d, Real.sin (radians d), Real.cos (radians d))
  | none =>
    let c := clamp (dot (convertZ g vector) ref)
    let a := Real.arccos c
    (degrees a, Real.sin a, c)

/-- for `lateral`: projection of a direction onto the plane normal to `r` (_blocked_well.py:2289-2294) -/
noncomputable def inPlane (r : Option Vec) (v : Vec) : Vec :=
  match r with
  | none => v
  | some r => unitVector fun c => v c - dot v r * r c

open Classical in
/-- _blocked_well.py:2278-2314 __get_angla_for_interval -/
noncomputable def lateral (given : Option ℝ) (g : CrsU) (iAxis vector : Vec) (ref : Option Vec) : ℝ × ℝ × ℝ :=
  let i := inPlane ref (unitVector (convertZ g iAxis))
  let v := inPlane ref vector
  match given with
  | some d => (d, Real.sin (radians d), Real.cos (radians d))
  | none =>
    let c := clamp (dot v i)
    let a := Real.arccos c
    if 0 < v 0 * i 1 - v 1 * i 0 then (-degrees a, -Real.sin a, c) else (degrees a, Real.sin a, c)

/-- entry and exit faces, by axis and polarity, -1 where there is none; for `throughK` (_blocked_well.py:1517-1520) -/
abbrev FacePair := (Int × Int) × (Int × Int)

/-- _blocked_well.py:1517-1520, 2250-2252 entry through the K- face and exit through the K+ face or within the cell -/
def throughK (f : FacePair) : Bool := f == ((0, 0), (0, 1)) || f == ((0, 0), (-1, -1))

open Classical in
/-- for `angles`: inclination and azimuth put together, the azimuth being left out for vertical intervals (_blocked_well.py:2264-2275) -/
noncomputable def joined (v l : ℝ × ℝ × ℝ) (givenA : Option ℝ) : Full :=
  if v.1 = 0 then ⟨v.1, v.2.1, v.2.2, givenA.getD 0, 0, 1⟩ else ⟨v.1, v.2.1, v.2.2, l.1, l.2.1, l.2.2⟩

/-- _blocked_well.py:2240-2275 __get_angles_for_interval, where angles are wanted and entry and exit points there; `refs` from `verifyRefs`;
`iAxis` is `axes 2`, and not a copy changed by an earlier conversion -/
noncomputable def angles (setVertical : Bool) (faces : FacePair) (givenV givenA : Option ℝ) (ee : CrsU) (trajZDown : Option Bool) (g : CrsU)
    (kDown : Bool) (axes : Fin 3 → Vec) (refs : Ref × Ref) (entry exit : Vec) : Full :=
  if setVertical && throughK faces then ⟨givenV.getD 0, 0, 1, givenA.getD 0, 0, 1⟩
  else
    let vector := wellVector ee trajZDown g entry exit
    joined (vertical givenV g vector ((refVector g kDown axes refs.1).getD (down g))) (lateral givenA g (axes 2) vector (refVector g kDown axes refs.2)) givenA

end Verif.Blocking
