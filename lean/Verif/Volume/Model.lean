import Verif.Py.Basic
import Mathlib.Algebra.Order.Field.Basic
import Mathlib.Algebra.Order.Group.Abs

/-! # Model of `resqpy/olio/volume.py`

Floats are elements of an ordered field; NaNs are not modelled. -/

namespace Verif.Volume

/-- a point or vector: the last axis of the numpy arrays; for `pyr` (volume.py:6-7) -/
@[ext] structure Vec (K : Type) where
  x : K
  y : K
  z : K

section
variable {K : Type} [Field K]

instance : Zero (Vec K) := ⟨⟨0, 0, 0⟩⟩
instance : Add (Vec K) := ⟨fun a b => ⟨a.x + b.x, a.y + b.y, a.z + b.z⟩⟩
instance : Sub (Vec K) := ⟨fun a b => ⟨a.x - b.x, a.y - b.y, a.z - b.z⟩⟩

theorem add_def (a b : Vec K) : a + b = ⟨a.x + b.x, a.y + b.y, a.z + b.z⟩ := rfl
theorem sub_def (a b : Vec K) : a - b = ⟨a.x - b.x, a.y - b.y, a.z - b.z⟩ := rfl

/-- multiplication by a number -/
def smul (t : K) (a : Vec K) : Vec K := ⟨t * a.x, t * a.y, t * a.z⟩

/-- `np.dot` of two vectors; for `pyr` (volume.py:6-7) -/
def dot (a b : Vec K) : K := a.x * b.x + a.y * b.y + a.z * b.z

/-- `np.cross`; for `pyr` (volume.py:6-7) -/
def cross (a b : Vec K) : Vec K := ⟨a.y * b.z - a.z * b.y, a.z * b.x - a.x * b.z, a.x * b.y - a.y * b.x⟩

/-- volume.py:6-7 `_pyr` -/
def pyr (ra ab ac ad db : Vec K) : K := dot ra (cross db ac) + 1 / 2 * dot ac (cross ad ab)

/-- volume.py:10-31 `pyramid_volume` -/
def pyramidVolume (apex a b c d : Vec K) (crsIsRightHanded : Bool) : K :=
  let v := pyr (a - apex) (b - a) (c - a) (d - a) (b - d) / 6
  if !crsIsRightHanded then -v else v

/-- the corner points of one cell, shape (2, 2, 2, 3): indices kp, jp, ip; `false` is index 0 and `true` index 1 -/
abbrev Corners (K : Type) := Bool → Bool → Bool → Vec K

/-- `np.mean(cp.reshape((8, 3)), axis = 0)` -/
def centre (cp : Corners K) : Vec K :=
  let s := cp false false false + cp false false true + cp false true false + cp false true true +
    cp true false false + cp true false true + cp true true false + cp true true true
  ⟨s.x / 8, s.y / 8, s.z / 8⟩

/-- volume.py:54-79 `tetra_cell_volume` -/
def tetraCellVolume (cp : Corners K) (c : Option (Vec K)) (offHand : Bool) : K :=
  let ctr := match c with
    | none => centre cp
    | some c => c
  let p000 := cp false false false
  let p001 := cp false false true
  let p010 := cp false true false
  let p011 := cp false true true
  let p100 := cp true false false
  let p101 := cp true false true
  let p110 := cp true true false
  let p111 := cp true true true
  let r0 := p000 - ctr
  let r1 := p111 - ctr
  let v := 0 + pyr r0 (p001 - p000) (p011 - p000) (p010 - p000) (p010 - p001)
  let v := v + pyr r0 (p100 - p000) (p101 - p000) (p001 - p000) (p001 - p100)
  let v := v + pyr r0 (p010 - p000) (p110 - p000) (p100 - p000) (p100 - p010)
  let v := v + pyr r1 (p101 - p111) (p100 - p111) (p110 - p111) (p110 - p101)
  let v := v + pyr r1 (p110 - p111) (p010 - p111) (p011 - p111) (p011 - p110)
  let v := v + pyr r1 (p011 - p111) (p001 - p111) (p101 - p111) (p101 - p011)
  let v := if offHand then -v else v
  v / 6

/-- volume.py:82-100 `tetra_volumes_slow`, the arrays flattened to one entry per cell.  Centres, when given, are one per
cell. -/
def tetraVolumesSlow (cps : List (Corners K)) (centres : Option (List (Vec K))) (offHand : Bool) : List K :=
  let cs := match centres with
    | none => cps.map centre
    | some cs => cs
  (cps.zip cs).map fun (cp, c) => tetraCellVolume cp (some c) offHand

/-- volume.py:117-118 `pyrs`, for arrays with one vector per cell: `np.sum(ra * np.cross(db, ac), axis = -1)` and so on -/
def pyrs (ra ab ac ad db : List (Vec K)) : List K :=
  List.zipWith (· + ·) (List.zipWith dot ra (List.zipWith cross db ac))
    ((List.zipWith dot ac (List.zipWith cross ad ab)).map (1 / 2 * ·))

/-- volume.py:103-153 `tetra_volumes`, the arrays flattened to one entry per cell -/
def tetraVolumes (cps : List (Corners K)) (centres : Option (List (Vec K))) (offHand : Bool) : List K :=
  let cs := match centres with
    | none => cps.map centre
    | some cs => cs
  let f := fun (a b c : Bool) => cps.map fun cp => cp a b c
  let minus := fun (p q : List (Vec K)) => List.zipWith (· - ·) p q
  let plus := fun (p q : List K) => List.zipWith (· + ·) p q
  let f000 := f false false false
  let f001 := f false false true
  let f010 := f false true false
  let f011 := f false true true
  let f100 := f true false false
  let f101 := f true false true
  let f110 := f true true false
  let f111 := f true true true
  let r0 := minus f000 cs
  let r1 := minus f111 cs
  let v := cps.map fun _ => (0 : K)
  let v := plus v (pyrs r0 (minus f001 f000) (minus f011 f000) (minus f010 f000) (minus f010 f001))
  let v := plus v (pyrs r0 (minus f100 f000) (minus f101 f000) (minus f001 f000) (minus f001 f100))
  let v := plus v (pyrs r0 (minus f010 f000) (minus f110 f000) (minus f100 f000) (minus f100 f010))
  let v := plus v (pyrs r1 (minus f101 f111) (minus f100 f111) (minus f110 f111) (minus f110 f101))
  let v := plus v (pyrs r1 (minus f110 f111) (minus f010 f111) (minus f011 f111) (minus f011 f110))
  let v := plus v (pyrs r1 (minus f011 f111) (minus f001 f111) (minus f101 f111) (minus f101 f011))
  let v := v.map (· / 6)
  if offHand then v.map (- ·) else v

/-- volume.py:34-51 `tetrahedron_volume` -/
def tetrahedronVolume [LinearOrder K] (a b c d : Vec K) : K := |dot (a - d) (cross (b - d) (c - d))| / 6

/-- unstructured/_hexa_grid.py:279-293 `HexaGrid.volume`, before adjustment of units: the nodes of the faces with the
handedness stored for each -/
def hexaVolume (apex : Vec K) (crsIsRightHanded : Bool) : List ((Vec K × Vec K × Vec K × Vec K) × Bool) → K
  | [] => 0
  | ((a, b, c, d), h) :: fs => pyramidVolume apex a b c d (crsIsRightHanded == h) + hexaVolume apex crsIsRightHanded fs

end

end Verif.Volume
