import Verif.Py.Basic
import Mathlib.Algebra.Order.Floor.Ring
import Mathlib.Algebra.Order.Field.Basic

/-! # Model of `resqpy/surface/_tri_mesh.py`

Numbers are the elements of any ordered field with a floor function; the constant `root_3_by_2` is the number `r` of the mesh, of which
only positivity is used.  Arrays are functions of their indices. -/

namespace Verif.TriMesh
open Verif.Py

variable {K : Type*} [Field K] [LinearOrder K] [IsStrictOrderedRing K] [FloorRing K]

/-- _tri_mesh.py:22-123 the attributes of a mesh: the numbers of nodes, triangle side, row spacing over side, origin (zero for None) and the
z values -/
structure Mesh (K : Type*) where
  nj : ℤ
  ni : ℤ
  t : K
  r : K
  ox : K
  oy : K
  z : ℤ → ℤ → K

/-- what the constructor insists upon: _tri_mesh.py:70-71 -/
structure Mesh.Good (m : Mesh K) : Prop where
  t_pos : 0 < m.t
  r_pos : 0 < m.r
  nj2 : 1 < m.nj
  ni2 : 1 < m.ni

/-- _tri_mesh.py:75-79, 89 x of a node -/
def Mesh.x (m : Mesh K) (j i : ℤ) : K := ((i : K) + if j % 2 = 1 then 1 / 2 else 0) * m.t + m.ox

/-- _tri_mesh.py:78-79, 89 y of a node -/
def Mesh.y (m : Mesh K) (j : ℤ) : K := m.r * (j : K) * m.t + m.oy

/-- triangle indices with trilinear coordinates; for `tjiTcForXy` (_tri_mesh.py:173-207) -/
structure Located (K : Type*) where
  tj : ℤ
  ti : ℤ
  f0 : K
  f1 : K
  f2 : K

/-- _tri_mesh.py:173-207 `tji_tc_for_xy` -/
def tjiTcForXy (m : Mesh K) (x y : K) : Option (Located K) :=
  let x := x - m.ox
  let y := y - m.oy
  let jp := y / (m.t * m.r)
  let j := ⌊jp⌋
  if ¬ (0 ≤ j ∧ j < m.nj - 1) then none
  else
    let fy := if j % 2 = 1 then ((j + 1 : ℤ) : K) - jp else jp - (j : K)
    let ip := x / m.t - 1 / 2 * fy
    let i := ⌊ip⌋
    if ¬ (0 ≤ i ∧ i < m.ni - 1) then none
    else
      let fx := ip - (i : K)
      if fx > 1 - fy then
        let fx' := fx - (1 - fy)
        let fy' := 1 - fy
        some ⟨j, i * 2 + 1, 1 - (fx' + fy'), fx', fy'⟩
      else some ⟨j, i * 2, 1 - (fx + fy), fx, fy⟩

/-- _tri_mesh.py:209-248 `tji_tc_for_xy_array`, for one point of the array; `none` for a coordinate is not-a-number, and trilinear
coordinates of `none` are not-a-number -/
def tjiTcForXyElement (m : Mesh K) (x y : Option K) : (ℤ × ℤ) × Option (K × K × K) :=
  let x' := x.map (· - m.ox)
  let y' := y.map (· - m.oy)
  let mask := x'.isNone || y'.isNone
  let xv := if mask then 0 else x'.getD 0
  let yv := if mask then 0 else y'.getD 0
  let jp := yv / (m.t * m.r)
  let j := ⌊jp⌋
  let mask := mask || (decide (j < 0) || decide (j ≥ m.nj - 1))
  let fy := if j % 2 ≠ 0 then ((j + 1 : ℤ) : K) - jp else jp - (j : K)
  let ip := xv / m.t - 1 / 2 * fy
  let i := ⌊ip⌋
  let mask := mask || (decide (i < 0) || decide (i ≥ m.ni - 1))
  let fx := ip - (i : K)
  let i2 := i * 2
  let am := fx > 1 - fy
  let i3 := if am then i2 + 1 else i2
  let fx' := if am then fx - (1 - fy) else fx
  let fy' := if am then 1 - fy else fy
  (if mask then (-1, -1) else (j, i3), if mask then none else some (1 - (fx' + fy'), fx', fy'))

/-- _tri_mesh.py:303-322 `tri_nodes_for_tji`: the (j, i) of the three nodes; python's `%` and `divmod` by two are the euclidean ones -/
def triNodes (m : Mesh K) (j i : ℤ) : Res ((ℤ × ℤ) × (ℤ × ℤ) × (ℤ × ℤ)) :=
  let jOdd := j % 2
  let i2 := i / 2
  let iOdd := i % 2
  if 0 ≤ j ∧ j < m.nj - 1 ∧ 0 ≤ i ∧ i < 2 * (m.ni - 1) then
    let baseJ := if iOdd ≠ 0 then j + 1 - jOdd else j + jOdd
    let tipJ := if iOdd ≠ 0 then j + jOdd else j + 1 - jOdd
    .ok ((baseJ, i2), (baseJ, i2 + 1), (tipJ, i2 + iOdd))
  else .error .assertion

/-- _tri_mesh.py:324-342 `tri_nodes_for_tji_array`, for one triangle -/
def triNodesElement (m : Mesh K) (j i : ℤ) : (ℤ × ℤ) × (ℤ × ℤ) × (ℤ × ℤ) :=
  let jOdd := j % 2
  let i2 := i / 2
  let iOdd := i % 2
  let mask := (j < 0 ∨ j ≥ m.nj - 1) ∨ (i < 0 ∨ i ≥ 2 * (m.ni - 1))
  let baseJ := if iOdd ≠ 0 then j + 1 - jOdd else j + jOdd
  let tipJ := if iOdd ≠ 0 then j + jOdd else j + 1 - jOdd
  if mask then ((-1, -1), (-1, -1), (-1, -1)) else ((baseJ, i2), (baseJ, i2 + 1), (tipJ, i2 + iOdd))

/-- _tri_mesh.py:344-361 `all_tri_nodes`, the element for triangle (j, i) -/
def allTriNodes (j i : ℤ) : (ℤ × ℤ) × (ℤ × ℤ) × (ℤ × ℤ) :=
  let j0 := j
  let j0 := if j % 2 = 1 ∧ i % 2 = 0 then j0 + 1 else j0
  let j0 := if j % 2 = 0 ∧ i % 2 = 1 then j0 + 1 else j0
  let j1 := j0
  let j2 := j0 + 1
  let j2 := if j % 2 = 1 ∧ i % 2 = 0 then j2 - 2 else j2
  let j2 := if j % 2 = 0 ∧ i % 2 = 1 then j2 - 2 else j2
  let i0 := if i % 2 = 0 then i / 2 else (i - 1) / 2
  let i1 := i0 + 1
  let i2 := i0
  let i2 := if i % 2 = 1 then i2 + 1 else i2
  ((j0, i0), (j1, i1), (j2, i2))

/-- two's complement wrapping of an integer kept in the given number of bits; for `compositeJi` (_tri_mesh.py:363-367) -/
def wrap (bits : ℕ) (n : ℤ) : ℤ := (n + 2 ^ (bits - 1)) % 2 ^ bits - 2 ^ (bits - 1)

/-- _tri_mesh.py:123 and _mesh.py:210-212: the number of bits of the integer type used for node indices -/
def tBits (m : Mesh K) : ℕ := if m.ni * m.nj ≥ 2147483648 then 32 else 64

/-- _tri_mesh.py:363-367 `triangles_and_points`: the point index of a node of a triangle.  The values of `all_tri_nodes` are of the
type chosen too, which holds them if neither number of nodes reaches 2^31. -/
def compositeJi (m : Mesh K) (node : ℤ × ℤ) : ℤ := wrap (tBits m) (node.1 * m.ni + node.2)

/-- _tri_mesh.py:369-372 `tji_for_triangle_index` -/
def tjiForTriangleIndex (m : Mesh K) (ti : ℤ) : Res (ℤ × ℤ) :=
  if 0 ≤ ti ∧ ti < (m.nj - 1) * (m.ni - 1) * 2 then .ok (ti / (2 * (m.ni - 1)), ti % (2 * (m.ni - 1))) else .error .assertion

/-- _tri_mesh.py:374-378 `triangle_index_for_tji` -/
def triangleIndexForTji (m : Mesh K) (tj ti : ℤ) : Res ℤ :=
  if 0 ≤ tj ∧ tj < m.nj - 1 ∧ 0 ≤ ti ∧ ti < 2 * (m.ni - 1) then .ok (2 * (m.ni - 1) * tj + ti) else .error .assertion

/-- _tri_mesh.py:282-291 `interpolated_z` by way of `ji_and_weights_for_xy`, 250-265 -/
def interpolatedZ (m : Mesh K) (x y : K) : Res (Option K) :=
  match tjiTcForXy m x y with
  | none => .ok none
  | some l =>
    match triNodes m l.tj l.ti with
    | .error e => .error e
    | .ok (a, b, c) => .ok (some (l.f0 * m.z a.1 a.2 + l.f1 * m.z b.1 b.2 + l.f2 * m.z c.1 c.2))

/-! ## Crossings of edges -/

/-- a point; for `crossingPoint` (_tri_mesh.py:440-442) -/
structure P3 (K : Type*) where
  x : K
  y : K
  z : K

/-- the node as a point; for `edgeZeroCrossings` (_tri_mesh.py:416-467) -/
def Mesh.node (m : Mesh K) (n : ℤ × ℤ) : P3 K := ⟨m.x n.1 n.2, m.y n.1, m.z n.1 n.2⟩

/-- the integers from `lo` in steps of `step` (positive), before `hi`; for `edges` (_tri_mesh.py:437-465) -/
def irange (lo hi step : ℕ) : List ℤ := ((List.range (hi - lo)).filter (· % step = 0)).map fun (k : ℕ) => ((lo + k : ℕ) : ℤ)

/-- _tri_mesh.py:437-465 (and 537-565) the pairs of nodes looked at, in the four families of edges.  `nj` and `ni` are natural numbers here. -/
def edges (nj ni : ℕ) : List ((ℤ × ℤ) × (ℤ × ℤ)) :=
  ((irange 0 nj 1).flatMap fun j => (irange 0 (ni - 1) 1).map fun i => ((j, i), (j, i + 1))) ++
  ((irange 0 (nj - 1) 1).flatMap fun j => (irange 0 ni 1).map fun i => ((j, i), (j + 1, i))) ++
  ((irange 0 (nj - 1) 2).flatMap fun j => (irange 1 ni 1).map fun i => ((j, i), (j + 1, i - 1))) ++
  ((irange 1 (nj - 1) 2).flatMap fun j => (irange 0 (ni - 1) 1).map fun i => ((j, i), (j + 1, i + 1)))

/-- _tri_mesh.py:440-442 the point on an edge at which linearly varying values are zero -/
def crossingPoint (p q : P3 K) (zp zq : K) : P3 K :=
  let s := |zp| + |zq|
  ⟨(p.x * |zq| + q.x * |zp|) / s, (p.y * |zq| + q.y * |zp|) / s, (p.z * |zq| + q.z * |zp|) / s⟩

/-- _tri_mesh.py:416-467 `edge_zero_crossings`; with values less a constant it is also the third case of `axial_edge_crossings` -/
def edgeZeroCrossings (m : Mesh K) (v : ℤ → ℤ → K) : List (P3 K) :=
  ((edges m.nj.toNat m.ni.toNat).filter fun (e : (ℤ × ℤ) × (ℤ × ℤ)) => decide (v e.1.1 e.1.2 * v e.2.1 e.2.2 < 0)).map
    fun e => crossingPoint (m.node e.1) (m.node e.2) (v e.1.1 e.1.2) (v e.2.1 e.2.2)

/-- the point a fraction of the way from one to another; for `axialX` (_tri_mesh.py:486-516) -/
def lerp (p q : P3 K) (f : K) : P3 K := ⟨p.x * (1 - f) + q.x * f, p.y * (1 - f) + q.y * f, p.z * (1 - f) + q.z * f⟩

/-- indexing of the second axis of the node array with a non-negative integer; for `axialX` (_tri_mesh.py:486-516) -/
def colCheck (m : Mesh K) (i : ℤ) : Res Unit := if 0 ≤ i ∧ i < m.ni then .ok () else .error .index

/-- _tri_mesh.py:486-516 the x case of `axial_edge_crossings`: rows of nodes `[::2]`, `[1::2]`, `[:-1:2]`, `[1:-1:2]` and `[2::2]` -/
def axialX (m : Mesh K) (value : K) : Res (List (P3 K)) :=
  let nj := m.nj.toNat
  let xi := ⌊value / m.t⌋
  let xr := value - m.t * (xi : K)
  if 0 ≤ xi ∧ (xi : K) + xr < ((m.ni : K) - 1 / 2) * m.t then
    let i := xi
    let xrf := xr / m.t
    let first : Res (List (P3 K)) :=
      if (xi : K) + xr < ((m.ni - 1 : ℤ) : K) * m.t then
        match colCheck m i, colCheck m (i + 1) with
        | .ok _, .ok _ => .ok ((irange 0 nj 2).map fun j => lerp (m.node (j, i)) (m.node (j, i + 1)) xrf)
        | _, _ => .error .index
      else .ok []
    let second : Res (List (P3 K)) :=
      if i ≠ 0 ∨ xrf > 1 / 2 then
        let vp := value - 1 / 2 * m.t
        let ip := ⌊vp / m.t⌋
        let xrp := (vp - m.t * (ip : K)) / m.t
        match colCheck m ip, colCheck m (ip + 1) with
        | .ok _, .ok _ => .ok ((irange 1 nj 2).map fun j => lerp (m.node (j, ip)) (m.node (j, ip + 1)) xrp)
        | _, _ => .error .index
      else .ok []
    let third : Res (List (P3 K)) :=
      if xr ≠ 0 ∧ xrf ≠ 1 / 2 then
        if xrf < 1 / 2 then
          let xrp := 2 * xrf
          match colCheck m i with
          | .ok _ =>
            .ok (((irange 0 (nj - 1) 2).map fun j => lerp (m.node (j, i)) (m.node (j + 1, i)) xrp) ++
              ((irange 1 (nj - 1) 2).map fun j => lerp (m.node (j + 1, i)) (m.node (j, i)) xrp))
          | _ => .error .index
        else
          let xrp := 2 * (1 - xrf)
          match colCheck m i, colCheck m (i + 1) with
          | .ok _, .ok _ =>
            .ok (((irange 0 (nj - 1) 2).map fun j => lerp (m.node (j, i + 1)) (m.node (j + 1, i)) xrp) ++
              ((irange 1 (nj - 1) 2).map fun j => lerp (m.node (j + 1, i + 1)) (m.node (j, i)) xrp))
          | _, _ => .error .index
      else .ok []
    match first, second, third with
    | .ok a, .ok b, .ok c => .ok (a ++ b ++ c)
    | .error e, _, _ => .error e
    | _, .error e, _ => .error e
    | _, _, .error e => .error e
  else .ok []

/-- _tri_mesh.py:518-533 the y case of `axial_edge_crossings`; with a remainder of zero the name `pp` has not been assigned when it is used -/
def axialY (m : Mesh K) (value : K) : Res (List (P3 K)) :=
  let ni := m.ni.toNat
  let h := m.t * m.r
  let yi := ⌊value / h⌋
  let yr := value - h * (yi : K)
  if 0 ≤ yi ∧ (yi : K) + yr ≤ ((m.nj - 1 : ℤ) : K) * m.t * m.r then
    let j := yi
    if yr = 0 then (if j < m.nj then .error .unbound else .error .index)
    else if j + 1 < m.nj then
      let yrp := yr / h
      let p := (irange 0 ni 1).map fun i => lerp (m.node (j, i)) (m.node (j + 1, i)) yrp
      let pp := if j % 2 = 1 then (irange 0 (ni - 1) 1).map fun i => lerp (m.node (j, i + 1)) (m.node (j + 1, i)) yrp
        else (irange 0 (ni - 1) 1).map fun i => lerp (m.node (j, i)) (m.node (j + 1, i + 1)) yrp
      .ok (p ++ pp)
    else .error .index
  else .ok []

end Verif.TriMesh
