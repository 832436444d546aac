import Verif.Py.Basic

/-!
# Triangulated surfaces and their patches

Model of resqpy/surface/_triangulated_patch.py, of the parts of resqpy/surface/_surface.py which deal with patches, and of
resqpy/surface/_combined_surface.py.

Simplifications throughout: a point is an element of any type `P`, with the operations on coordinates which a function needs as
parameters; an array of triangles is a list of triples of point numbers; loading from and writing to files, titles, crs and uuids are
left out.
-/

namespace Verif.Surface
open Verif.Py

/-- a triangle, by the numbers of its corner points (a row of a triangles array, _triangulated_patch.py:60-114) -/
abbrev Tri := Nat × Nat × Nat

/-- the arrays of a patch and what is needed to find columns (_triangulated_patch.py:27-32) -/
structure Patch (P : Type) where
  tris : List Tri
  points : List P
  quad : Option Bool
  ni : Option Nat

variable {P : Type}

/-! ## Meshes -/

/-- the points of a mesh of `nj` by `ni` nodes as a flat array, the i index varying fastest (`reshape((-1, 3))`,
_triangulated_patch.py:293-294, 311) -/
def flatMesh (nj ni : Nat) (mesh : Nat → Nat → P) : List P :=
  (List.range nj).flatMap fun j => (List.range ni).map fun i => mesh j i

/-- _triangulated_patch.py:304-309, 414-419: the four triangles of a quadrangle around its centre point, given the numbers of the centre and
the corners in the order (0, 0), (0, 1), (1, 0), (1, 1) -/
def fourTris (centre a b c d : Nat) : List Tri := [(centre, a, b), (centre, b, d), (centre, d, c), (centre, c, a)]

/-- _triangulated_patch.py:319-322, 430-433: the two triangles of a quadrangle -/
def twoTris (a b c d : Nat) : List Tri := [(a, b, c), (d, b, c)]

/-- _triangulated_patch.py:283-324 `set_from_irregular_mesh`, for a mesh of `nj` by `ni` nodes; `mean` is a quarter of the sum of
four points -/
def fromIrregularMesh (mean : P → P → P → P → P) (nj ni : Nat) (mesh : Nat → Nat → P) (quadTriangles : Bool) : Res (Patch P) :=
  if nj > 1 ∧ ni > 1 then
    let nic := ni - 1
    if quadTriangles then
      .ok ⟨(List.range (nj - 1)).flatMap fun j => (List.range nic).flatMap fun i =>
          fourTris (nj * ni + j * nic + i) (j * ni + i) (j * ni + i + 1) ((j + 1) * ni + i) ((j + 1) * ni + i + 1),
        flatMesh nj ni mesh ++
          flatMesh (nj - 1) nic (fun j i => mean (mesh j i) (mesh j (i + 1)) (mesh (j + 1) i) (mesh (j + 1) (i + 1))),
        some true, some nic⟩
    else
      .ok ⟨(List.range (nj - 1)).flatMap fun j => (List.range nic).flatMap fun i =>
          twoTris (j * ni + i) (j * ni + i + 1) ((j + 1) * ni + i) ((j + 1) * ni + i + 1),
        flatMesh nj ni mesh, some false, some nic⟩
  else .error .assertion

/-- _triangulated_patch.py:393-435 `set_from_torn_mesh`, for `nj` by `ni` quadrangles: `mesh j i jp ip` is a corner of quadrangle
`(j, i)` -/
def fromTornMesh (mean : P → P → P → P → P) (nj ni : Nat) (mesh : Nat → Nat → Nat → Nat → P) (quadTriangles : Bool) :
    Res (Patch P) :=
  if nj > 0 ∧ ni > 0 then
    let corners : List P := (List.range nj).flatMap fun j => (List.range ni).flatMap fun i =>
      [mesh j i 0 0, mesh j i 0 1, mesh j i 1 0, mesh j i 1 1]
    if quadTriangles then
      .ok ⟨(List.range nj).flatMap fun j => (List.range ni).flatMap fun i =>
          fourTris (nj * ni * 4 + j * ni + i) (4 * (j * ni + i)) (4 * (j * ni + i) + 1) (4 * (j * ni + i) + 2) (4 * (j * ni + i) + 3),
        corners ++ flatMesh nj ni (fun j i => mean (mesh j i 0 0) (mesh j i 0 1) (mesh j i 1 0) (mesh j i 1 1)),
        some true, some ni⟩
    else
      .ok ⟨(List.range nj).flatMap fun j => (List.range ni).flatMap fun i =>
          twoTris (4 * (j * ni + i)) (4 * (j * ni + i) + 1) (4 * (j * ni + i) + 2) (4 * (j * ni + i) + 3),
        corners, some false, some ni⟩
  else .error .assertion

/-- _triangulated_patch.py:437-468 `column_from_triangle_index`, for a single index: `none` stands for the pair of `None`s.  The
number of triangles `triangle_count` is the length of the array. -/
def columnFromTriangleIndex (p : Patch P) (t : Int) : Option (Int × Int) :=
  match p.quad, p.ni with
  | some q, some ni =>
    if t ≥ p.tris.length then none
    else
      let face := if q then t / 4 else t / 2
      some (face / ni, face % ni)
  | _, _ => none

/-! ## Meshes with undefined nodes -/

/-- the nodes whose z value is a number, in the order of `np.where` (_triangulated_patch.py:383) -/
def nonNans (nj ni : Nat) (nan : Nat → Nat → Bool) : List (Nat × Nat) :=
  ((List.range nj).flatMap fun j => (List.range ni).map fun i => (j, i)).filter fun q => ! nan q.1 q.2

/-- _triangulated_patch.py:375-391 `get_indices_from_sparse_meshxyz`: the point number of a node, -1 if it is undefined -/
def sparseIndex (nj ni : Nat) (nan : Nat → Nat → Bool) (j i : Nat) : Int :=
  match (nonNans nj ni nan).idxOf? (j, i) with
  | some k => k
  | none => -1

/-- _triangulated_patch.py:340-370: the triangles of one quadrangle of a mesh with undefined nodes, given which of its nodes are
undefined and the numbers of the nodes, in the order (0, 0), (0, 1), (1, 0), (1, 1) -/
def sparseQuad (na nb nc nd : Bool) (a b c d : Int) : Res (List (Int × Int × Int)) :=
  let nanNodes := [na, nb, nc, nd].count true
  if nanNodes > 1 then .ok []
  else if nanNodes = 0 then .ok [(a, b, c), (d, b, c)]
  else if a < 0 then .ok [(b, c, d)]
  else if b < 0 then .ok [(a, c, d)]
  else if c < 0 then .ok [(b, a, d)]
  else if d < 0 then .ok [(b, c, a)]
  else .error .custom

/-- the triangles of all quadrangles, in order, or an exception; for `fromSparseMesh` (_triangulated_patch.py:338-370) -/
def concatRes {α : Type} : List (Res (List α)) → Res (List α)
  | [] => .ok []
  | r :: rs => match r with
    | .error e => .error e
    | .ok l => match concatRes rs with
      | .error e => .error e
      | .ok ls => .ok (l ++ ls)

/-- _triangulated_patch.py:326-373 `set_from_sparse_mesh`: triangles and points -/
def fromSparseMesh (nj ni : Nat) (mesh : Nat → Nat → P) (nan : Nat → Nat → Bool) :
    Res (List (Int × Int × Int) × List P) :=
  if nj > 1 ∧ ni > 1 then
    let ix := sparseIndex nj ni nan
    match concatRes ((List.range (nj - 1)).flatMap fun j => (List.range (ni - 1)).map fun i =>
        sparseQuad (nan j i) (nan j (i + 1)) (nan (j + 1) i) (nan (j + 1) (i + 1))
          (ix j i) (ix j (i + 1)) (ix (j + 1) i) (ix (j + 1) (i + 1))) with
    | .error e => .error e
    | .ok ts => .ok (ts, (nonNans nj ni nan).map fun q => mesh q.1 q.2)
  else .error .assertion

/-! ## Faces of a cell -/

/-- _triangulated_patch.py:490-495, 522-527: the steps in the numbers of the corner points along the two directions of a face -/
def faceSteps (axis : Nat) : Int × Int := if axis = 0 then (2, 1) else if axis = 1 then (4, 1) else (4, 2)

/-- _triangulated_patch.py:496-502: the two triangles of a face of a cell, by numbers of corner points -/
def faceTwo (axis ip : Nat) : List (Int × Int × Int) :=
  let ips : Int := -2 * ip + 1
  let base : Int := 7 * ip
  let s := faceSteps axis
  [(base, base + ips * (s.1 + s.2), base + ips * s.2), (base, base + ips * (s.1 + s.2), base + ips * s.1)]

/-- _triangulated_patch.py:528-537: the four triangles of a face of a cell around its centre -/
def faceFour (axis ip : Nat) : List (Int × Int × Int) :=
  let centre : Int := 8 + 2 * axis + ip
  let ips : Int := -2 * ip + 1
  let base : Int := 7 * ip
  let s := faceSteps axis
  [(centre, base, base + ips * s.2), (centre, base + ips * s.2, base + ips * (s.1 + s.2)),
    (centre, base + ips * (s.1 + s.2), base + ips * s.1), (centre, base + ips * s.1, base)]

/-- the six faces in the order in which they are dealt with: axis by axis, the negative face first
(_triangulated_patch.py:489-496, 521-528) -/
def faceList : List (Nat × Nat) := (List.range 3).flatMap fun axis => (List.range 2).map fun ip => (axis, ip)

/-- _triangulated_patch.py:470-539 `set_to_cell_faces_from_corner_points`: the triangles -/
def cellTris (quadTriangles : Bool) : List (Int × Int × Int) :=
  faceList.flatMap fun f => if quadTriangles then faceFour f.1 f.2 else faceTwo f.1 f.2

/-- _triangulated_patch.py:486, 510-518: the points: the corners with numbers 4 kp + 2 jp + ip, followed by the centres of the faces if
there are four triangles to a face; `cp kp jp ip` is a corner point -/
def cellPoints (mean : P → P → P → P → P) (cp : Nat → Nat → Nat → P) (quadTriangles : Bool) : List P :=
  [cp 0 0 0, cp 0 0 1, cp 0 1 0, cp 0 1 1, cp 1 0 0, cp 1 0 1, cp 1 1 0, cp 1 1 1] ++
    if quadTriangles then
      [mean (cp 0 0 0) (cp 0 0 1) (cp 0 1 0) (cp 0 1 1), mean (cp 1 0 0) (cp 1 0 1) (cp 1 1 0) (cp 1 1 1),
       mean (cp 0 0 0) (cp 0 0 1) (cp 1 0 0) (cp 1 0 1), mean (cp 0 1 0) (cp 0 1 1) (cp 1 1 0) (cp 1 1 1),
       mean (cp 0 0 0) (cp 0 1 0) (cp 1 0 0) (cp 1 1 0), mean (cp 0 0 1) (cp 0 1 1) (cp 1 0 1) (cp 1 1 1)]
    else []

/-- `node_count` as set for the faces of a cell (_triangulated_patch.py:485, 517) -/
def cellNodeCount (quadTriangles : Bool) : Nat := if quadTriangles then 14 else 8

/-- `triangle_count` as set for the faces of a cell (_triangulated_patch.py:484, 509) -/
def cellTriangleCount (quadTriangles : Bool) : Nat := if quadTriangles then 24 else 12

/-- _triangulated_patch.py:541-553 `face_from_triangle_index`, for a patch with the given counts -/
def faceFromTriangleIndex (quad : Bool) (nodeCount triangleCount : Nat) (t : Int) : Res (Int × Int) :=
  if quad then
    if nodeCount = 30 ∧ triangleCount = 24 then
      if 0 ≤ t ∧ t < 24 then .ok (t / 4 / 2, t / 4 % 2) else .error .assertion
    else .error .assertion
  else
    if nodeCount = 24 ∧ triangleCount = 12 then
      if 0 ≤ t ∧ t < 12 then .ok (t / 2 / 2, t / 2 % 2) else .error .assertion
    else .error .assertion

/-- _surface.py:862-880 `cell_axis_and_polarity_from_triangle_index`; `quad` is that of the first patch -/
def cellAxisPolarity (quad : Bool) (t : Int) : Int × Int × Int :=
  let face := t / (if quad then 4 else 2)
  (face / 6, face % 6 / 2, face % 6 % 2)

/-! ## Trimming -/

/-- whether a point is used by one of some triangles; for `keptPoints` (_triangulated_patch.py:158) -/
def uses (ts : List Tri) (k : Nat) : Bool := ts.any fun t => t.1 = k ∨ t.2.1 = k ∨ t.2.2 = k

/-- `np.unique` of some triangles: the points used, in increasing order.  A simplification is that only numbers of existing points
occur, which holds as the triangles have been used as indices before (_triangulated_patch.py:155, 158; _surface.py:460, 470) -/
def keptPoints (n : Nat) (ts : List Tri) : List Nat := (List.range n).filter (uses ts)

/-- `p_map`: the new number of an old point, -1 if it is not kept (_triangulated_patch.py:160-161; _surface.py:472-473) -/
def pMap (keep : List Nat) (k : Nat) : Int :=
  match keep.idxOf? k with
  | some m => m
  | none => -1

/-- _triangulated_patch.py:158-168 and _surface.py:470-480: the selected triangles with new point numbers, and the points they
use -/
def compress (points : List P) (selected : List Tri) : Res (List (Int × Int × Int) × List P) :=
  let keep := keptPoints points.length selected
  let trimmed := keep.filterMap (fun k => points[k]?)
  let ts := selected.map fun t => (pMap keep t.1, pMap keep t.2.1, pMap keep t.2.2)
  if ts.all fun t => 0 ≤ t.1 ∧ 0 ≤ t.2.1 ∧ 0 ≤ t.2.2 then
    if ts.all fun t => t.1 < trimmed.length ∧ t.2.1 < trimmed.length ∧ t.2.2 < trimmed.length then .ok (ts, trimmed)
    else .error .assertion
  else .error .assertion

/-- a point number used as an index of an array of truth values; for `tp_in` (_triangulated_patch.py:155) -/
def flagsOf (inside : List Bool) (t : Tri) : Option (Bool × Bool × Bool) :=
  match inside[t.1]?, inside[t.2.1]?, inside[t.2.2]? with
  | some a, some b, some c => some (a, b, c)
  | _, _, _ => none

/-- whether a triangle is selected: all or any of its corners are inside (_triangulated_patch.py:156) -/
def selectTri (internal : Bool) (f : Bool × Bool × Bool) : Bool :=
  if internal then f.1 && f.2.1 && f.2.2 else f.1 || f.2.1 || f.2.2

/-- the triangles selected, given which points are inside (_triangulated_patch.py:155-156; _surface.py:460-463) -/
def selectTris (internal : Bool) (inside : List Bool) (tris : List Tri) : List Tri :=
  tris.filter fun t => match flagsOf inside t with | some f => selectTri internal f | none => false

/-- a test which may be absent; for `trimmedPatch` (_triangulated_patch.py:146-153) -/
def passes (test : Option (P → Bool)) (p : P) : Bool :=
  match test with
  | none => true
  | some f => f p

/-- _triangulated_patch.py:116-173 `set_to_trimmed_patch`: `inBox` and `inPolygon` tell which points are within the box and within
the polygon, if these are given.  The exception for no points is that of the minimum taken for a log message. -/
def trimmedPatch (inBox inPolygon : Option (P → Bool)) (internal : Bool) (tris : List Tri) (points : List P) :
    Res (List (Int × Int × Int) × List P) :=
  if inBox.isNone ∧ inPolygon.isNone then .error .assertion
  else if points.isEmpty then .error .value
  else
    let inside := points.map fun p => passes inBox p && passes inPolygon p
    if tris.all fun t => (flagsOf inside t).isSome then
      compress points (selectTris internal inside tris)
    else .error .index

/-- the signed area with the two ends of the line, positive if clockwise (_surface.py:451-457, vector_utilities.py:557-560) -/
def lineSide {K : Type} [Sub K] [Mul K] (line : (K × K × K) × (K × K × K)) (p : K × K × K) : K :=
  (p.1 - line.1.1) * (line.2.2.1 - line.1.2.1) - (p.2.1 - line.1.2.1) * (line.2.1 - line.1.1)

/-- an offset added to a point; for `splitSurface` (_surface.py:481) -/
def shiftPoint {K : Type} [Add K] (d p : K × K × K) : K × K × K := (p.1 + d.1, p.2.1 + d.2.1, p.2.2 + d.2.2)

/-- _surface.py:433-487 `set_to_split_surface` -/
def splitSurface {K : Type} [Zero K] [Add K] [Sub K] [Mul K] [LE K] [DecidableLE K] (line delta : (K × K × K) × (K × K × K))
    (tris : List Tri) (points : List (K × K × K)) : Res (List (Int × Int × Int) × List (K × K × K)) :=
  let pa := points.map fun p => decide (lineSide line p ≥ 0)
  let pb := points.map fun p => decide (lineSide line p ≤ 0)
  if tris.all fun t => (flagsOf pa t).isSome then
    match compress points (selectTris false pa tris) with
    | .error e => .error e
    | .ok a =>
      match compress points (selectTris false pb tris) with
      | .error e => .error e
      | .ok b =>
        let k : Int := a.2.length
        .ok (a.1 ++ b.1.map (fun t => (t.1 + k, t.2.1 + k, t.2.2 + k)),
          a.2.map (shiftPoint delta.1) ++ b.2.map (shiftPoint delta.2))
  else .error .index

/-! ## Several patches -/

/-- the triangles of a patch with an offset added to the point numbers; for `composite` (_surface.py:310) -/
def offsetTris (k : Nat) (ts : List Tri) : List Tri := ts.map fun t => (t.1 + k, t.2.1 + k, t.2.2 + k)

/-- _surface.py:306-311, _combined_surface.py:70-75: one patch (surface); `off` is `points_offset` -/
def compositeStep (off : Nat) (acc : Option (List Tri × List P)) (t : List Tri) (p : List P) : Option (List Tri × List P) :=
  if off = 0 then some (t, p)
  else match acc with
    | none => some (offsetTris off t, p)
    | some (t0, p0) => some (t0 ++ offsetTris off t, p0 ++ p)

/-- _surface.py:303-312 the loop of `triangles_and_points` over the patches, and _combined_surface.py:67-76 that over the surfaces;
`acc` is `none` as long as the arrays are `None` -/
def compositeLoop : Nat → Option (List Tri × List P) → List (List Tri × List P) → Option (List Tri × List P)
  | _, acc, [] => acc
  | off, acc, (t, p) :: rest =>
    compositeLoop (off + p.length) (compositeStep off acc t p) rest

/-- the composite triangles and points of some patches (_surface.py:299-316, _combined_surface.py:63-78) -/
def composite (patches : List (List Tri × List P)) : Option (List Tri × List P) := compositeLoop 0 none patches

/-- _combined_surface.py:51-61 `surface_index_for_triangle_index`; `counts` are the numbers of triangles of the surfaces and `s` that
of the surface being looked at -/
def surfaceIndexFor (counts : List Nat) (t : Int) (s : Nat := 0) : Option (Nat × Int) :=
  match counts with
  | [] => none
  | n :: rest => if t < n then some (s, t) else surfaceIndexFor rest (t - n) (s + 1)

/-- a surface: its patches and the cached composite arrays (_surface.py:102-105) -/
structure Surf (P : Type) where
  patches : List (List Tri × List P)
  triangles : Option (List Tri)
  points : Option (List P)

/-- _surface.py:282-316 `triangles_and_points()` of the whole surface: the surface afterwards and what is returned.  A
simplification is that the arrays returned are not those of the patches themselves. -/
def Surf.get (s : Surf P) : Surf P × Option (List Tri) × Option (List P) :=
  match s.triangles with
  | some _ => (s, s.triangles, s.points)
  | none =>
    match composite s.patches with
    | none => (s, s.triangles, s.points)
    | some (t, p) => (⟨s.patches, some t, some p⟩, some t, some p)

/-- _surface.py:547-555 `set_from_triangles_and_points`.  A simplification is that the points have three coordinates. -/
def Surf.setTP (_ : Surf P) (t : List Tri) (p : List P) : Surf P := ⟨[(t, p)], some t, some p⟩

/-- _surface.py:557-569 `set_multi_patch_from_triangles_and_points`; the assignment of `None` to `self.trianges` is to an attribute
which is not used -/
def Surf.setMulti (s : Surf P) (l : List (List Tri × List P)) : Surf P := ⟨l, s.triangles, none⟩

/-- populating from a mesh, the faces of cells, a plane, a triangle and so on: the patch list is replaced
(_surface.py:764-767, 778-781, 809-812, 841-860, 896-927) -/
def Surf.setPatches (s : Surf P) (l : List (List Tri × List P)) : Surf P := { s with patches := l }

/-- _surface.py:321-324 `decache_triangles_and_points` -/
def Surf.decache (s : Surf P) : Surf P := { s with triangles := none, points := none }

/-- _surface.py:986-1002 `vertical_rescale_points` with a reference depth and a factor other than one; `rescale` acts on a point -/
def Surf.rescale (s : Surf P) (rescale : P → P) : Surf P :=
  ⟨s.patches.map fun q => (q.1, q.2.map rescale), none, none⟩

/-! ## The sail -/

/-- _triangulated_patch.py:271-277: the triangles between two rows after the first one, `n` pairs of them -/
def sailPairs : Nat → Nat → Nat → List Tri
  | 0, _, _ => []
  | n + 1, p1, p2 => (p1, p1 + 1, p2 + 1) :: (p1 + 1, p2 + 1, p2 + 2) :: sailPairs n (p1 + 1) (p2 + 1)

/-- _triangulated_patch.py:267-277: the triangles between row `row` and the next -/
def sailRow (row : Nat) : List Tri :=
  let p1 := row * (row + 1) / 2
  let p2 := (row + 1) * (row + 2) / 2
  (p1, p2, p2 + 1) :: sailPairs row p1 p2

/-- _triangulated_patch.py:249-277 `set_to_sail`: the triangles -/
def sailTris (n : Nat) : List Tri := (List.range n).flatMap sailRow

/-- _triangulated_patch.py:254-264 `set_to_sail`: the points, as pairs of azimuth and dip passed to `sail_point` -/
def sailAngles {K : Type} [Zero K] [Add K] [Sub K] [Mul K] [NatCast K] (half : K) (azimuth deltaTheta : K) (n : Nat) : List (K × K) :=
  (azimuth, 0) :: (List.range n).flatMap fun row =>
    (List.range (row + 2)).map fun (pp : Nat) =>
      (azimuth - ((row + 1 : Nat) : K) * (half * deltaTheta) + (pp : K) * deltaTheta, ((row + 1 : Nat) : K) * deltaTheta)

/-! ## A horizontal plane -/

/-- _triangulated_patch.py:175-206 `set_to_horizontal_plane`: the triangles and points; the box is given by its lowest and highest
x and y, and `half` is one half -/
def horizontalPlane {K : Type} [Add K] [Sub K] [Mul K] (half depth : K) (lo hi : K × K) (border : K) (quadTriangles : Bool) :
    List Tri × List (K × K × K) :=
  let x0 := lo.1 - border
  let y0 := lo.2 - border
  let x1 := hi.1 + border
  let y1 := hi.2 + border
  if quadTriangles then
    ([(0, 2, 4), (2, 1, 4), (1, 3, 4), (3, 0, 4)],
      [(x0, y0, depth), (x1, y1, depth), (x0, y1, depth), (x1, y0, depth), (half * (x0 + x1), half * (y0 + y1), depth)])
  else
    ([(0, 1, 2), (0, 3, 1)], [(x0, y0, depth), (x1, y1, depth), (x0, y1, depth), (x1, y0, depth)])

/-! ## Rescaling of depths -/

/-- the depths of the points of a patch, and whether they have been loaded (`patch.points` is `None` otherwise,
_triangulated_patch.py:32, 60-114) -/
structure ZPatch (K : Type) where
  z : List K
  loaded : Bool

/-- _surface.py:996-997: the reference after one patch -/
def lowerRef {K : Type} [LT K] [DecidableLT K] (ref : Option K) (patchMin : K) : Option K :=
  match ref with
  | none => some patchMin
  | some r => if patchMin < r then some patchMin else some r

/-- _surface.py:993-997: the least depth, if no reference is given -/
def findRef {K : Type} [LT K] [DecidableLT K] [Min K] (ref : Option K) : List (ZPatch K) → Res (Option K)
  | [] => .ok ref
  | q :: rest =>
    if q.loaded then
      match q.z with
      | [] => .error .value
      | z :: zs =>
        findRef (lowerRef ref (zs.foldl min z)) rest
    else .error .type

/-- _triangulated_patch.py:555-563 `vertical_rescale_points` of a patch: the points are loaded first -/
def ZPatch.rescale {K : Type} [Add K] [Sub K] [Mul K] (ref factor : K) (q : ZPatch K) : ZPatch K :=
  ⟨q.z.map fun z => ref + factor * (z - ref), true⟩

/-- _surface.py:986-1002 `vertical_rescale_points` -/
def rescaleSurface {K : Type} [One K] [Add K] [Sub K] [Mul K] [LT K] [DecidableLT K] [Min K] [DecidableEq K] (ref : Option K)
    (factor : K) (patches : List (ZPatch K)) : Res (List (ZPatch K)) :=
  if factor = 1 then .ok patches
  else
    match (match ref with
      | some r => .ok (some r)
      | none => findRef none patches : Res (Option K)) with
    | .error e => .error e
    | .ok none => .error .assertion
    | .ok (some r) => .ok (patches.map (ZPatch.rescale r factor))

/-! ## GOCAD files -/

/-- a line of a file: whether it contains the text VRTX and the text TRGL, and its words (_surface.py:950-962) -/
structure TsLine where
  vrtx : Bool
  trgl : Bool
  words : List String

/-- the state of the loop over the lines (_surface.py:946-962): the words of the vertices and of the triangles, the last number of a
vertex and the first -/
structure TsState where
  vertices : List (List String)
  triangles : List (List String)
  last : Option Int
  offset : Int

/-- _surface.py:951-962: one line; `toInt` is `int()` -/
def tsStep (toInt : String → Option Int) (s : TsState) (l : TsLine) : Res TsState :=
  if l.vrtx then
    match l.words[1]? with
    | none => .error .index
    | some w =>
      match toInt w with
      | none => .error .value
      | some v =>
        match s.last with
        | none => .ok { s with last := some v, offset := v, vertices := s.vertices ++ [(l.words.drop 2).take 3] }
        | some k =>
          if v = k + 1 then .ok { s with last := some v, vertices := s.vertices ++ [(l.words.drop 2).take 3] }
          else .error .assertion
  else if l.trgl then .ok { s with triangles := s.triangles ++ [(l.words.drop 1).take 3] }
  else .ok s

/-- _surface.py:950-962: the loop over the lines -/
def tsLoop (toInt : String → Option Int) (s : TsState) : List TsLine → Res TsState
  | [] => .ok s
  | l :: rest =>
    match tsStep toInt s l with
    | .error e => .error e
    | .ok s' => tsLoop toInt s' rest

/-- a row of three words converted to numbers; for `np.array(…, dtype = …)` (_surface.py:966-967).  A simplification is that rows of
any other length are refused, also when all have that length. -/
def tsRow {K : Type} (parse : String → Option K) : List String → Option (K × K × K)
  | [a, b, c] =>
    match parse a, parse b, parse c with
    | some x, some y, some z => some (x, y, z)
    | _, _, _ => none
  | _ => none

/-- _surface.py:944-969 `set_from_tsurf_file`: triangles and points; `toFloat` is the conversion of a word to a float -/
def readTsurf {K : Type} (toInt : String → Option Int) (toFloat : String → Option K) (lines : List TsLine) :
    Res (List (Int × Int × Int) × List (K × K × K)) :=
  match tsLoop toInt ⟨[], [], none, 0⟩ lines with
  | .error e => .error e
  | .ok s =>
    if s.vertices.length ≥ 3 then
      if s.triangles.length > 0 then
        match s.triangles.mapM (tsRow toInt) with
        | none => .error .value
        | some ts =>
          match s.vertices.mapM (tsRow toFloat) with
          | none => .error .value
          | some vs =>
            let ts' := ts.map fun t => (t.1 - s.offset, t.2.1 - s.offset, t.2.2 - s.offset)
            if (ts'.all fun t => 0 ≤ t.1 ∧ 0 ≤ t.2.1 ∧ 0 ≤ t.2.2) ∧
                (ts'.all fun t => t.1 < vs.length ∧ t.2.1 < vs.length ∧ t.2.2 < vs.length) then .ok (ts', vs)
            else .error .assertion
      else .error .assertion
    else .error .assertion

end Verif.Surface
