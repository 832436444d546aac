import Verif.Py.Basic
import Verif.Py.Text
import Verif.RegGrid.Model
import Mathlib.Analysis.SpecialFunctions.Pow.Real

/-!
# Meshes (surface/_mesh.py) and mesh files (olio/zmap_reader.py)

Numbers are real numbers; a value which is not a number is `none`.  Arrays are functions of their indices with the number of coordinates
per point beside them, so that indices out of range are not modelled.  Uuids are natural numbers.  Xml nodes are records of what is read
from them.
-/

namespace Verif.Mesh
open Verif.Py

/-- a point or a vector: x, y, z (for `regular_origin`: _mesh.py:114) -/
abbrev Vec := Fin 3 → ℝ

/-- an array of points of shape (NJ, NI, 3 or 2) (for `full_array`: _mesh.py:112): the number of coordinates, and their values by j, i and
coordinate -/
structure Pts where
  width : Nat
  val : Nat → Nat → Nat → Option ℝ

/-- an array of z values of shape (NJ, NI) (_mesh.py:263) -/
abbrev Zs := Nat → Nat → Option ℝ

/-- _mesh.py:111 -/
inductive Flavour | explicit | regular | regz | refz
  deriving DecidableEq

/-- _mesh.py:114-115 regular_origin and regular_dxyz_dij; increments for steps along I and along J -/
structure Lat where
  origin : Vec
  di : Vec
  dj : Vec

/-- _mesh.py:108-121 the attributes of a mesh; the reference mesh is found again by its uuid where the code keeps it as an object, and
titles, metadata and interpretations are left out -/
structure Mesh where
  role : String
  ni : Nat
  nj : Nat
  flavour : Flavour
  full : Option Pts
  lat : Option Lat
  ref : Option Nat
  crs : Nat

/-! ### Xml -/

/-- an offset of a lattice in xml (_mesh.py:622-638): direction, spacing and count -/
structure OffX where
  dir : Option Vec
  stride : Option ℝ
  count : Option Int

/-- _mesh.py:613-638 a lattice in xml: origin, and offsets in the order in which they are written -/
structure LatX where
  origin : Option Vec
  offs : List OffX

/-- an offset of indices in xml (_mesh.py:660-672): whether constant, value and count -/
structure IdxX where
  const : Bool
  value : Int
  count : Int

/-- the kinds of points in xml (_mesh.py:533-547) -/
inductive PointsX
  | lattice (l : LatX)
  | zLattice (l : LatX)
  | zRef (ref : Option Nat) (start : Int) (offs : List IdxX)
  | coords (three : Bool)
  | other

/-- _mesh.py:755-795 the xml node of a mesh -/
structure Node where
  role : String
  ni : Option Nat
  nj : Option Nat
  crs : Option Nat
  points : Option PointsX

/-- what is stored: xml nodes, arrays of points and arrays of z values, each by the uuid of the mesh (_mesh.py:259-263, 798) -/
structure Store where
  nodes : List (Nat × Node)
  points : List (Nat × Pts)
  zs : List (Nat × Zs)

/-! ### Regular points -/

/-- numpy linspace with its end included, as used in _mesh.py:564-569: for a count of one, the start -/
noncomputable def linspace (a b : ℝ) (num i : Nat) : ℝ := if num = 1 then a else a + (i : ℝ) * ((b - a) / ((num : ℝ) - 1))

/-- _mesh.py:564-566 one coordinate of the points for I nought -/
noncomputable def startI0 (l : Lat) (nj : Nat) (c : Fin 3) (j : Nat) : ℝ := linspace 0 (((nj : ℝ) - 1) * l.dj c) nj j

/-- _mesh.py:563-570 one coordinate of a point -/
noncomputable def regularAt (l : Lat) (ni nj : Nat) (j i : Nat) (c : Fin 3) : ℝ :=
  linspace (startI0 l nj c j) (startI0 l nj c j + ((ni : ℝ) - 1) * l.di c) ni i + l.origin c

/-- _mesh.py:562-570 __full_array_ref_regular, without z values -/
noncomputable def regularPts (l : Lat) (ni nj : Nat) : Pts :=
  ⟨3, fun j i c => if h : c < 3 then some (regularAt l ni nj j i ⟨c, h⟩) else none⟩

/-- full_array[..., 2] = z (_mesh.py:351, 366, 585, 603); an array of two coordinates has no such place -/
def setZ (p : Pts) (z : Zs) : Res Pts :=
  if 2 < p.width then .ok ⟨p.width, fun j i c => if c = 2 then z j i else p.val j i c⟩ else .error .index

/-! ### Loading -/

/-- _mesh.py:437-453 and 490-506: one offset, whose increment is direction times stride -/
noncomputable def loadOff (n : Nat) (o : OffX) : Res Vec :=
  match o.dir, o.stride, o.count with
  | some d, some s, some c => if c = (n : Int) - 1 then (if 0 < s then .ok (fun a => d a * s) else .error .assertion) else .error .assertion
  | _, _, _ => .error .assertion

/-- _mesh.py:427-453 and 481-506: the offset for J first -/
noncomputable def loadLat (ni nj : Nat) (x : LatX) : Res Lat :=
  match x.origin, x.offs with
  | some o, [oj, oi] => do
    let dj ← loadOff nj oj
    let di ← loadOff ni oi
    .ok ⟨o, di, dj⟩
  | _, _ => .error .assertion

/-- _mesh.py:467-477 the use made of the reference mesh must be in full -/
def refUseOk (ni nj : Nat) (start : Int) (offs : List IdxX) : Bool :=
  match offs with
  | [oj, oi] => decide (start = 0) && oj.const && oi.const && decide (oj.value = 1) && decide (oi.value = 1) &&
      decide (oj.count = (nj : Int) - 1) && decide (oi.count = (ni : Int) - 1)
  | _ => false

/-- _mesh.py:508-547 _load_from_xml for the mesh of a uuid; the reference mesh is loaded to be compared (460-466).  The first argument bounds
the length of chains of references, which in the code end when too deep -/
noncomputable def load : Nat → Store → Nat → Res Mesh
  | 0, _, _ => .error .custom
  | fuel + 1, s, u =>
    match s.nodes.lookup u with
    | none => .error .assertion
    | some n =>
      match n.ni, n.nj, n.crs, n.points with
      | some ni, some nj, some crs, some p =>
        match p with
        | .lattice x => (loadLat ni nj x).map fun l => ⟨n.role, ni, nj, .regular, none, some l, none, crs⟩
        | .zLattice x => (loadLat ni nj x).map fun l => ⟨n.role, ni, nj, .regz, none, some l, none, crs⟩
        | .zRef ref start offs =>
          match ref with
          | none => .error .assertion
          | some r => do
            let m ← load fuel s r
            if nj = m.nj ∧ ni = m.ni then
              if refUseOk ni nj start offs then .ok ⟨n.role, ni, nj, .refz, none, none, some r, crs⟩ else .error .assertion
            else .error .assertion
        | .coords _ => .ok ⟨n.role, ni, nj, .explicit, none, none, none, crs⟩
        | .other => .error .custom
      | _, _, _, _ => .error .assertion

/-- _mesh.py:219-238, 549-605 full_array_ref of a mesh; where an array is missing from the store the code logs an error and goes on without
one, which is an error here -/
noncomputable def fullArray : Nat → Store → Nat → Mesh → Res Pts
  | 0, _, _, _ => .error .custom
  | fuel + 1, s, u, m =>
    match m.full with
    | some p => .ok p
    | none =>
      match m.flavour with
      | .explicit => match s.points.lookup u with
        | some p => .ok p
        | none => .error .key
      | .regular => match m.lat with
        | some l => .ok (regularPts l m.ni m.nj)
        | none => .error .type
      | .regz => match m.lat with
        | some l => match s.zs.lookup u with
          | some z => setZ (regularPts l m.ni m.nj) z
          | none => .error .attribute
        | none => .error .type
      | .refz => match m.ref with
        | none => .error .assertion
        | some r => do
          let rm ← load fuel s r
          let p ← fullArray fuel s r rm
          match s.zs.lookup u with
          | some z => setZ p z
          | none => .error .attribute

/-- the array of the mesh of a uuid, loaded afresh (_mesh.py:129, 226-238) -/
noncomputable def loadArray (fuel : Nat) (s : Store) (u : Nat) : Res Pts := do
  let m ← load fuel s u
  fullArray fuel s u m

/-! ### Making -/

/-- z values as given (_mesh.py:342, 357): in the shape of the mesh, or in one row -/
inductive ZIn
  | grid (nj ni : Nat) (z : Zs)
  | flat (n : Nat) (z : Nat → Option ℝ)

/-- the test of the shape and the reshape in _mesh.py:342, 351 and 357, 366 -/
def zShape (nj ni : Nat) : ZIn → Res Zs
  | .grid a b z => if a = nj ∧ b = ni then .ok z else .error .assertion
  | .flat n z => if n = nj * ni then .ok (fun j i => z (j * ni + i)) else .error .assertion

/-- _mesh.py:369-379 -/
def ofRegular (role : String) (crs ni nj : Nat) (l : Lat) : Res Mesh :=
  if 0 < nj ∧ 0 < ni then .ok ⟨role, ni, nj, .regular, none, some l, none, crs⟩ else .error .assertion

/-- _mesh.py:337-352 -/
noncomputable def ofRegz (role : String) (crs ni nj : Nat) (zin : ZIn) (l : Lat) : Res Mesh :=
  if 0 < nj ∧ 0 < ni then do
    let z ← zShape nj ni zin
    let p ← setZ (regularPts l ni nj) z
    .ok ⟨role, ni, nj, .regz, some p, some l, none, crs⟩
  else .error .assertion

/-- _mesh.py:354-367 -/
noncomputable def ofRefz (fuel : Nat) (s : Store) (role : String) (crs ni nj : Nat) (zin : ZIn) (ref : Nat) : Res Mesh :=
  if 0 < nj ∧ 0 < ni then do
    let z ← zShape nj ni zin
    let rm ← load fuel s ref
    if rm.nj = nj ∧ rm.ni = ni then do
      let p ← fullArray fuel s ref rm
      let q ← setZ p z
      .ok ⟨role, ni, nj, .refz, some q, none, some ref, crs⟩
    else .error .assertion
  else .error .assertion

/-- _mesh.py:381-388 -/
def ofXyz (role : String) (crs nj ni : Nat) (p : Pts) : Res Mesh :=
  if p.width = 3 ∧ 1 < nj ∧ 1 < ni then .ok ⟨role, ni, nj, .explicit, some p, none, none, crs⟩ else .error .assertion

/-- _mesh.py:106, 132-141, 324-335 the arguments of a new mesh, other than a file -/
structure Args where
  role : String
  crs : Option Nat
  xyz : Option (Nat × Nat × Pts)
  ni : Option Nat
  nj : Option Nat
  origin : Option Vec
  dxyz : Option (Vec × Vec)
  z : Option ZIn
  support : Option Nat

/-- _mesh.py:106-143 a new mesh from arguments, other than a file; a crs which is missing is noticed first (a simplification: the code may
come upon another error before) -/
noncomputable def make (fuel : Nat) (s : Store) (a : Args) : Res Mesh :=
  if a.role = "map" ∨ a.role = "pick" then
    match a.xyz, a.crs with
    | some (nj, ni, p), some crs => ofXyz a.role crs nj ni p
    | _, crs? =>
      match a.ni, a.nj with
      | some ni, some nj =>
        match a.z with
        | none => match a.origin, a.dxyz, crs? with
          | some o, some (di, dj), some crs => ofRegular a.role crs ni nj ⟨o, di, dj⟩
          | _, _, _ => .error .assertion
        | some z => match a.support with
          | some r => match crs? with
            | some crs => ofRefz fuel s a.role crs ni nj z r
            | none => .error .assertion
          | none => match a.origin, a.dxyz, crs? with
            | some o, some (di, dj), some crs => ofRegz a.role crs ni nj z ⟨o, di, dj⟩
            | _, _, _ => .error .assertion
      | _, _ => .error .assertion
  else .error .assertion

/-! ### Storing -/

/-- vec.dot_product(dxyz, dxyz) (_mesh.py:618, 709) -/
def dot (d : Vec) : ℝ := d 0 * d 0 + d 1 * d 1 + d 2 * d 2

/-- _mesh.py:616-638 and 707-729 one offset -/
noncomputable def storeOff (n : Nat) (d : Vec) : Res OffX :=
  if 0 < dot d then .ok ⟨some (fun a => d a / Real.sqrt (dot d)), some (Real.sqrt (dot d)), some ((n : Int) - 1)⟩ else .error .assertion

/-- _mesh.py:613-638 and 704-729 a lattice, J first -/
noncomputable def storeLat (ni nj : Nat) (l : Lat) : Res LatX := do
  let oj ← storeOff nj l.dj
  let oi ← storeOff ni l.di
  .ok ⟨some l.origin, [oj, oi]⟩

/-- _mesh.py:651-672 the use of the reference mesh -/
def storeRefUse (ni nj : Nat) : List IdxX := [⟨true, 1, (nj : Int) - 1⟩, ⟨true, 1, (ni : Int) - 1⟩]

/-- _mesh.py:303-317, 607-753 the points node -/
noncomputable def storePoints (m : Mesh) (xyOnly : Bool) : Res PointsX :=
  match m.flavour with
  | .regular => match m.lat with
    | some l => (storeLat m.ni m.nj l).map .lattice
    | none => .error .assertion
  | .refz => match m.ref with
    | some r => .ok (.zRef (some r) 0 (storeRefUse m.ni m.nj))
    | none => .error .assertion
  | .regz => match m.lat with
    | some l => (storeLat m.ni m.nj l).map .zLattice
    | none => .error .assertion
  | .explicit => .ok (.coords !xyOnly)

/-- _mesh.py:268-322, 755-795 the node of a mesh -/
noncomputable def storeNode (m : Mesh) (xyOnly : Bool) : Res Node := do
  let p ← storePoints m xyOnly
  .ok ⟨m.role, some m.ni, some m.nj, some m.crs, some p⟩

/-- _mesh.py:245-266 write_hdf5 -/
noncomputable def writeArrays (fuel : Nat) (s : Store) (u : Nat) (m : Mesh) (xyOnly : Bool) : Res Store :=
  match m.flavour with
  | .regular => .ok s
  | .explicit => do
    let p ← fullArray fuel s u m
    .ok { s with points := (u, if xyOnly then ⟨2, p.val⟩ else p) :: s.points }
  | _ => do
    let p ← fullArray fuel s u m
    .ok { s with zs := (u, fun j i => p.val j i 2) :: s.zs }

/-- write_hdf5 and create_xml, called one after the other (_mesh.py:245-322, 797-798) -/
noncomputable def store (fuel : Nat) (s : Store) (u : Nat) (m : Mesh) (xyOnly : Bool) : Res Store := do
  let s' ← writeArrays fuel s u m xyOnly
  let n ← storeNode m xyOnly
  .ok { s' with nodes := (u, n) :: s'.nodes }

/-- one mesh made and stored: arrays are written before xml, and stay written if xml is refused (_mesh.py:106-143, 245-322) -/
noncomputable def step (fuel : Nat) (s : Store) (c : Nat × Args) : Store :=
  match make fuel s c.2 with
  | .error _ => s
  | .ok m => match writeArrays fuel s c.1 m false with
    | .error _ => s
    | .ok s' => match storeNode m false with
      | .error _ => s'
      | .ok n => { s' with nodes := (c.1, n) :: s'.nodes }

/-- meshes made and stored one after the other -/
noncomputable def steps (fuel : Nat) (s : Store) (cs : List (Nat × Args)) : Store := cs.foldl (step fuel) s

/-! ### From a property of columns -/

/-- _mesh.py:188-191, 197-208 the mesh made for a property of columns of a regular grid, as arguments -/
noncomputable def columnArgs (g : RegGrid.RegGrid ℝ) (crs : Nat) (prop : Nat × Nat × Zs) : Res Args :=
  if g.aligned then
    if prop.1 = g.nj ∧ prop.2.1 = g.ni then
      if g.d 2 0 ≠ 0 ∧ g.d 1 1 ≠ 0 then
        .ok ⟨"map", some crs, none, some g.ni, some g.nj, some ![1 / 2 * g.d 2 0, 1 / 2 * g.d 1 1, 0],
          some (![g.d 2 0, 0, 0], ![0, g.d 1 1, 0]), some (.grid prop.1 prop.2.1 prop.2.2), none⟩
      else .error .assertion
    else .error .assertion
  else .error .assertion

/-! ### Mesh files -/

/-- a line of a file, without its end (zmap_reader.py:26, 112) -/
abbrev Line := List Char

/-- what is read from headers (zmap_reader.py:65, 93) -/
structure Head where
  headers : Nat
  rows : Int
  cols : Int
  minx : ℝ
  maxx : ℝ
  miny : ℝ
  maxy : ℝ
  null : List Char

/-- str.strip(chars): characters of one kind taken from both ends (zmap_reader.py:33) -/
def trim (p : Char → Bool) (s : List Char) : List Char := ((s.dropWhile p).reverse.dropWhile p).reverse

/-- str.strip() (zmap_reader.py:33, 48-49) -/
def strip (s : List Char) : List Char := trim isWS s

/-- str.strip('@') (zmap_reader.py:33) -/
def stripAt (s : List Char) : List Char := trim (fun c => decide (c = '@')) s

/-- str.split(',') (zmap_reader.py:33) -/
def splitComma : List Char → List (List Char)
  | [] => [[]]
  | c :: cs =>
    match splitComma cs with
    | [] => [[c]]
    | w :: ws => if c = ',' then [] :: w :: ws else (c :: w) :: ws

/-- zmap_reader.py:33 -/
def fields (l : Line) : List (List Char) := splitComma (stripAt (strip l))

/-- zmap_reader.py:25-37 the rows of the header, the number of lines read and the lines which follow; the first argument is the number of
'@' so far.  The outer `none` says that reading never ends: once at the end of the file readline gives an empty line for ever -/
def zmapRows : Nat → List Line → Option (Res (List (List (List Char)) × Nat × List Line))
  | a, [] => if a = 1 then none else .some (.error .value)
  | a, l :: ls =>
    let a' := if l.head? = some '@' then a + 1 else a
    if l.head? = some '!' then
      (zmapRows a' ls).map fun r => r.map fun (h, n, rest) => (h, n + 1, rest)
    else if a' = 1 ∨ l.head? = some '@' then
      if 2 ≤ a' then some (.ok ([fields l], 1, ls))
      else (zmapRows a' ls).map fun r => r.map fun (h, n, rest) => (fields l :: h, n + 1, rest)
    else some (.error .value)

/-- an element of a list of lists of text (for zmap_reader.py:48-57) -/
def item (h : List (List (List Char))) (r c : Nat) : Res (List Char) :=
  match h[r]? with
  | none => .error .index
  | some row => match row[c]? with
    | none => .error .index
    | some w => .ok w

/-- int(text) of a text without blanks (zmap_reader.py:81, 90) -/
def intOf (w : List Char) : Res Int := match readInt? w with
  | some n => .ok n
  | none => .error .value

/-- float(text) of a text without blanks (zmap_reader.py:85-88), by a function which reads numbers; texts for values which are not numbers are
left out -/
def floatOf (num : List Char → Option ℝ) (w : List Char) : Res ℝ := match num w with
  | some x => .ok x
  | none => .error .value

/-- int(text) with blanks around (zmap_reader.py:52-53) -/
def intField (w : List Char) : Res Int := intOf (strip w)

/-- np.float64(text) with blanks around (zmap_reader.py:54-57) -/
def floatField (num : List Char → Option ℝ) (w : List Char) : Res ℝ := floatOf num (strip w)

/-- zmap_reader.py:38-40 one line more for a line which begins with '+'; there must be a line -/
def plusLine (n : Nat) : List Line → Res Nat
  | [] => .error .index
  | l :: _ => .ok (if l.head? = some '+' then n + 1 else n)

/-- zmap_reader.py:48-65 -/
noncomputable def zmapHead (num : List Char → Option ℝ) (h : List (List (List Char))) (n : Nat) (rest : List Line) : Res Head := do
  let headers ← plusLine n rest
  let null ← item h 1 1
  let null2 ← item h 1 2
  let rows ← (item h 2 0).bind intField
  let cols ← (item h 2 1).bind intField
  let minx ← (item h 2 2).bind (floatField num)
  let maxx ← (item h 2 3).bind (floatField num)
  let miny ← (item h 2 4).bind (floatField num)
  let maxy ← (item h 2 5).bind (floatField num)
  .ok ⟨headers, rows, cols, minx, maxx, miny, maxy, if strip null = [] then strip null2 else strip null⟩

/-- zmap_reader.py:12-65 read_zmap_header; where the code gives back three values the caller cannot unpack them -/
noncomputable def readZmapHeader (num : List Char → Option ℝ) (file : List Line) : Option (Res Head) :=
  (zmapRows 0 file).map fun r => r.bind fun (h, n, rest) => zmapHead num h n rest

/-- a word of a line of blank separated words (for zmap_reader.py:79-90); lines missing at the end of a file are empty -/
def word (file : List Line) (r c : Nat) : Res (List Char) :=
  match (splitWS (file.getD r []))[c]? with
  | none => .error .index
  | some w => .ok w

/-- zmap_reader.py:71-93 read_roxar_header -/
noncomputable def readRmsHeader (num : List Char → Option ℝ) (file : List Line) : Res Head := do
  let mark ← word file 0 0
  if mark = "-996".toList then do
    let rows ← (word file 0 1).bind intOf
    let minx ← (word file 1 0).bind (floatOf num)
    let maxx ← (word file 1 1).bind (floatOf num)
    let miny ← (word file 1 2).bind (floatOf num)
    let maxy ← (word file 1 3).bind (floatOf num)
    let cols ← (word file 2 0).bind intOf
    .ok ⟨4, rows, cols, minx, maxx, miny, maxy, "9999900.0000".toList⟩
  else .error .assertion

/-- zmap_reader.py:123-126 the value of a word; the text of the null value is read only for words with another text -/
noncomputable def valueOf (num : List Char → Option ℝ) (null w : List Char) : Res (Option ℝ) :=
  if w = null then .ok none
  else match num w, num null with
    | some x, some y => .ok (if x = y then none else some x)
    | _, _ => .error .value

/-- zmap_reader.py:115-127 the values: zeros, of which the first ones are replaced; there is no place for too many -/
noncomputable def values (num : List Char → Option ℝ) (null : List Char) (size : Nat) (words : List (List Char)) : Res (Nat → Option ℝ) := do
  let vs ← words.mapM (valueOf num null)
  if vs.length ≤ size then .ok (fun n => vs.getD n (some 0)) else .error .index

/-- zmap_reader.py:114-127 the words of the lines after the header -/
def wordsAfter (headers : Nat) (file : List Line) : List (List Char) := (file.drop headers).flatMap splitWS

/-- x, y and values by row and column (zmap_reader.py:100), with numbers of rows and columns -/
structure XYF where
  rows : Nat
  cols : Nat
  x : Nat → Nat → ℝ
  y : Nat → Nat → ℝ
  f : Nat → Nat → Option ℝ

/-- zmap_reader.py:109-148 the mesh of a file, of which the header is read; negative numbers of rows or columns are refused by numpy -/
noncomputable def readBody (num : List Char → Option ℝ) (zmap : Bool) (file : List Line) (h : Head) : Res XYF :=
  if h.rows < 0 ∨ h.cols < 0 then .error .value
  else do
    let v ← values num h.null (h.cols.toNat * h.rows.toNat) (wordsAfter h.headers file)
    let f : Nat → Nat → Option ℝ := fun r c => if zmap then v (c * h.rows.toNat + r) else v (r * h.cols.toNat + c)
    let y : Nat → ℝ := fun r => if zmap then linspace h.maxy h.miny h.rows.toNat r else linspace h.miny h.maxy h.rows.toNat r
    .ok ⟨h.rows.toNat, h.cols.toNat, fun _ c => linspace h.minx h.maxx h.cols.toNat c, fun r _ => y r, f⟩

/-- zmap_reader.py:96-148 read_mesh; `none` if it never ends -/
noncomputable def readMesh (num : List Char → Option ℝ) (zmap : Bool) (file : List Line) : Option (Res XYF) :=
  if zmap then (readZmapHeader num file).map fun h => h.bind (readBody num zmap file)
  else some ((readRmsHeader num file).bind (readBody num zmap file))

/-- _mesh.py:399 the points of a file -/
def filePts (t : XYF) : Pts := ⟨3, fun j i c => if c = 0 then some (t.x j i) else if c = 1 then some (t.y j i) else t.f j i⟩

/-- _mesh.py:401-410 origin and increments from the first and the last point -/
noncomputable def fileLat (t : XYF) : Lat :=
  ⟨![t.x 0 0, t.y 0 0, 0], ![(t.x (t.rows - 1) (t.cols - 1) - t.x 0 0) / ((t.cols : ℝ) - 1), 0, 0],
    ![0, (t.y (t.rows - 1) (t.cols - 1) - t.y 0 0) / ((t.rows : ℝ) - 1), 0]⟩

/-- _mesh.py:390-422 __load_from_mesh_file after reading; for ref&z a mesh is made with an origin of None (411-417), which is refused
(_mesh.py:328) -/
noncomputable def ofFile (role : String) (crs : Nat) (flavour : Flavour) (t : XYF) : Res Mesh :=
  if 1 < t.rows ∧ 1 < t.cols then
    match flavour with
    | .explicit => .ok ⟨role, t.cols, t.rows, .explicit, some (filePts t), none, none, crs⟩
    | .refz => .error .assertion
    | fl => .ok ⟨role, t.cols, t.rows, fl, some (filePts t), some (fileLat t), none, crs⟩
  else .error .assertion

end Verif.Mesh
