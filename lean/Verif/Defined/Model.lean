import Verif.Py.Basic
import Mathlib.Algebra.Order.Field.Rat
import Mathlib.Data.Fin.VecNotation

/-!
# Which pillars and cells of a grid have geometry

Model of `resqpy/grid/_defined_geometry.py`: the cached flags telling which pillars and cells of a corner point
grid have usable points, the completion or nullification of pillars that are defined only in part, the filling of
whole missing pillars, and the queries which answer from the flags, from the stored arrays or from the points.

Simplifications, for the whole file: numbers are exact (`Rat`), NaN is `none`; arrays are functions of their
indices, of which only the part inside the extent is used; pillars are numbered flat, the primary pillar in row `j`
and column `i` being number `j * (ni + 1) + i`, and split pillars following the primaries.
-/

namespace Verif.Defined
open Verif.Py

/-- Points of the grid: layer of points (raw, k gaps included), pillar, axis (x, y, z).
`grid.points_ref(masked = False)`, flattened over the pillars; `_defined_geometry.py` line 265. -/
abbrev Pts := Nat → Nat → Fin 3 → Option Rat

/-- A boolean array over layers, rows and columns.; for `St` (_defined_geometry.py:125) -/
abbrev Arr3 := Nat → Nat → Nat → Bool

/-- A boolean array over rows and columns.; for `St` (_defined_geometry.py:125) -/
abbrev Arr2 := Nat → Nat → Bool

/-- Extent of the grid. `raw` is `k_raw_index_array`, the number of the layer of points on top of each layer of
cells; with no k gaps it is the identity. `_grid.py` lines 329-340. -/
structure Dims where
  nk : Nat
  nj : Nat
  ni : Nat
  nraw : Nat
  total : Nat
  kGaps : Bool
  raw : Nat → Nat

/-- Number of primary pillars; `_defined_geometry.py` line 301. -/
def Dims.prim (d : Dims) : Nat := (d.nj + 1) * (d.ni + 1)

/-- Number of a primary pillar; the row major flattening of `_defined_geometry.py` lines 306 and 312-313. -/
def Dims.pil (d : Dims) (j i : Nat) : Nat := j * (d.ni + 1) + i

/-- `np.any` over the indices below `n`.; for `dotBase` (_defined_geometry.py:403) -/
def anyN (n : Nat) (f : Nat → Bool) : Bool := (List.range n).any f

/-- `np.all` over the indices below `n`.; for `surround` (_defined_geometry.py:454) -/
def allN (n : Nat) (f : Nat → Bool) : Bool := (List.range n).all f

/-- The attributes of the grid which the functions of the file read and write: points, the two flags, the two
arrays and the inactive mask. `_grid.py` lines 125-126; an attribute that is absent or None is `none`. -/
structure St where
  pts : Pts
  allPillars : Option Bool
  pillarArr : Option Arr2
  allCells : Option Bool
  cellArr : Option Arr3
  inactive : Option Arr3
  allInactive : Option Bool

/-- Is a point to be taken as NaN? `_defined_geometry.py` lines 267-270. -/
def nanPoint (tn : Option Rat) (p : Fin 3 → Option Rat) : Bool :=
  match tn with
  | some v => ((p 0).isNone || p 0 == some v) || ((p 1).isNone || p 1 == some v) || ((p 2).isNone || p 2 == some v)
  | none => (p 0).isNone || (p 1).isNone || (p 2).isNone

/-- First stage of the mask of points around cells which are dots: the two layers of points of each such cell, on
the pillar with the lowest row and column. `__handle_areal_dots`, `_defined_geometry.py` lines 403-411; the
assignment on line 411 overwrites what line 410 has set, as in the code. -/
def dotBase (d : Dims) (dots : Arr3) (k j i : Nat) : Bool :=
  decide (j < d.nj) && decide (i < d.ni) &&
    if d.kGaps then
      anyN d.nk (fun c => dots c j i && (d.raw c == k || d.raw c + 1 == k))
    else
      if k = 0 then decide (0 < d.nk) && dots 0 j i else dots (k - 1) j i

/-- Second stage: spread to the next row; `_defined_geometry.py` line 412. -/
def dotRow (d : Dims) (dots : Arr3) (k j i : Nat) : Bool :=
  if 1 ≤ j ∧ i < d.ni then dotBase d dots k (j - 1) i || dotBase d dots k j i else dotBase d dots k j i

/-- Third stage: spread to the next column; `_defined_geometry.py` line 413. -/
def dotMask (d : Dims) (dots : Arr3) (k j i : Nat) : Bool :=
  if 1 ≤ i then dotRow d dots k j (i - 1) || dotRow d dots k j i else dotRow d dots k j i

/-- The mask of points to be taken as NaN, with the points around dots; `_defined_geometry.py` lines 267-270,
291-292 and 414-420. In both branches of the last lines the primary pillars alone are affected. -/
def nanMask (d : Dims) (tn : Option Rat) (dots : Option Arr3) (pts : Pts) (k q : Nat) : Bool :=
  nanPoint tn (pts k q) ||
    match dots with
    | none => false
    | some f => decide (q < d.prim) && dotMask d f k (q / (d.ni + 1)) (q % (d.ni + 1))

/-- `np.any(areal_dots)`; `_defined_geometry.py` lines 272-277. -/
def someDots (d : Dims) (dots : Option Arr3) : Bool :=
  match dots with
  | none => false
  | some f => anyN d.nk fun k => anyN d.nj fun j => anyN d.ni fun i => f k j i

/-- `while k < lim and m[k]: k += 1`; `_defined_geometry.py` lines 427-428, 438-439, 443-444, 599-600. The first
argument bounds the steps. -/
def scanUp (lim : Nat) (m : Nat → Bool) : Nat → Nat → Nat
  | 0, k => k
  | f + 1, k => if k < lim ∧ m k = true then scanUp lim m f (k + 1) else k

/-- `while m[k]: k -= 1`; `_defined_geometry.py` lines 433-434, 607-608. -/
def scanDown (m : Nat → Bool) : Nat → Nat
  | 0 => 0
  | k + 1 => if m (k + 1) = true then scanDown m k else k + 1

/-- Apply an operation to two values of which either may be NaN.; for `linear` (_defined_geometry.py:445) -/
def lift2 (f : Rat → Rat → Rat) (a b : Option Rat) : Option Rat :=
  match a, b with
  | some x, some y => some (f x y)
  | _, _ => none

/-- `points[a:s] = np.linspace(points[a], points[s], num = s - a, endpoint = False)`;
`_defined_geometry.py` lines 445-447, for one axis. -/
def linear (c : Nat → Option Rat) (a s : Nat) (k : Nat) : Option Rat :=
  if a ≤ k ∧ k < s then
    lift2 (fun x y => x + ((k - a : Nat) : Rat) * ((y - x) / ((s - a : Nat) : Rat))) (c a) (c s)
  else c k

/-- The loop over the gaps in a pillar; `_defined_geometry.py` lines 437-448. `m` is the mask of missing points,
which the loop does not update. -/
def gaps (m : Nat → Bool) (last : Nat) : Nat → Nat → (Nat → Option Rat) → (Nat → Option Rat)
  | 0, _, c => c
  | f + 1, k, c =>
    let k1 := scanUp last (fun t => !m t) (last + 1) k
    if last ≤ k1 then c
    else
      let s := scanUp (last + 1) m (last + 1) (k1 + 1)
      gaps m last f s (linear c (k1 - 1) s)

/-- `__infill_partial_pillar`, `_defined_geometry.py` lines 423-448, for one axis of one pillar with the points
`0..nraw`; the mask of missing points comes from the x axis. The assertion of line 429 is `infillFails`. -/
def infill (nraw : Nat) (m : Nat → Bool) (c : Nat → Option Rat) : Nat → Option Rat :=
  let first := scanUp (nraw + 1) m (nraw + 1) 0
  let c1 := fun k => if k < first then c first else c k
  let last := scanDown m nraw
  let c2 := fun k => if last < k ∧ k ≤ nraw then c1 last else c1 k
  gaps m last (nraw + 1) first c2

/-- The assertion in `__infill_partial_pillar` fails; `_defined_geometry.py` lines 426-429. -/
def infillFails (nraw : Nat) (m : Nat → Bool) : Bool := nraw + 1 ≤ scanUp (nraw + 1) m (nraw + 1) 0

/-- Is the top point of a primary pillar missing? `_defined_geometry.py` lines 360-361 and 374-375. -/
def topNan (d : Dims) (pts : Pts) (j i : Nat) : Bool := (pts 0 (d.pil j i) 0).isNone

/-! ## Filling whole missing pillars -/

/-- Rows or columns without any pillar; `__create_surround_masks`, `_defined_geometry.py` lines 454, 467 and 480. -/
def surround (d : Dims) (m : Arr2) (j i : Nat) : Bool :=
  allN (d.ni + 1) (fun c => m j c) || allN (d.nj + 1) (fun r => m r i)

/-- The coastal mask; `__create_surround_masks`, `_defined_geometry.py` lines 455-481: missing pillars which reach the
edge of their row, unless the row is missing altogether, or the edge of their column, and in both cases not in a
column which is missing altogether. -/
def coastal (d : Dims) (m : Arr2) (j i : Nat) : Bool :=
  let row := allN (d.ni + 1) (fun c => m j c)
  let col := allN (d.nj + 1) (fun r => m r i)
  if col then false
  else
    (!row && (allN (i + 1) (fun c => m j c) || allN (d.ni + 1) (fun c => decide (c < i) || m j c))) ||
      (allN (j + 1) (fun r => m r i) || allN (d.nj + 1) (fun r => decide (r < j) || m r i))

/-- The points and the holes left during one pass of the loop in `__fill_holes`.; for `put` (_defined_geometry.py:511) -/
structure Holes where
  pts : Pts
  left : Arr2

/-- One stage of `__fill_holes`: the selected holes are given values and are holes no more; for instance
`_defined_geometry.py` lines 511-516. -/
def put (d : Dims) (sel : Arr2) (val : Pts → Nat → Nat → Nat → Fin 3 → Option Rat) (s : Holes) : Holes where
  pts := fun k q c =>
    let j := q / (d.ni + 1)
    let i := q % (d.ni + 1)
    if q < d.prim ∧ s.left j i = true ∧ sel j i = true then val s.pts k j i c else s.pts k q c
  left := fun j i => s.left j i && !sel j i

/-- The four neighbours which are not holes, and those at the corners; `mask_01` of `_defined_geometry.py` line 492,
shifted as on lines 496-499 and 532, 546, 560, 574. -/
def jm (h : Arr2) (j i : Nat) : Bool := decide (1 ≤ j) && !h (j - 1) i
/-- Neighbour in the next row; `_defined_geometry.py` line 496. -/
def jp (d : Dims) (h : Arr2) (j i : Nat) : Bool := decide (j < d.nj) && !h (j + 1) i
/-- Neighbour in the previous column; `_defined_geometry.py` line 499. -/
def im (h : Arr2) (j i : Nat) : Bool := decide (1 ≤ i) && !h j (i - 1)
/-- Neighbour in the next column; `_defined_geometry.py` line 498. -/
def ip (d : Dims) (h : Arr2) (j i : Nat) : Bool := decide (i < d.ni) && !h j (i + 1)

/-- Mean of two neighbours; `_defined_geometry.py` lines 513, 523, 535, 549, 563 and 577. -/
def mean2 (a b : Option Rat) : Option Rat := lift2 (fun x y => (x + y) / 2) a b

/-- Mean of two neighbours at a corner, pushed away from the pillar between them when that is there too;
`_defined_geometry.py` lines 534-538, 548-552, 562-566 and 576-580. -/
def pushed (diag : Bool) (a b p : Option Rat) : Option Rat :=
  if diag then lift2 (fun v x => 2 * v - x) (mean2 a b) p else mean2 a b

/-- One pass of the loop in `__fill_holes`; `_defined_geometry.py` lines 491-583. `h` is the mask of the holes at the
start of the pass. -/
def holesPass (d : Dims) (h : Arr2) (pts : Pts) : Holes :=
  let s0 : Holes := ⟨pts, h⟩
  let s1 := put d (fun j i => jm h j i && jp d h j i && im h j i && ip d h j i)
    (fun p k j i c => lift2 (fun x y => (x + y) / 4)
      (lift2 (· + ·) (p k (d.pil j (i - 1)) c) (p k (d.pil j (i + 1)) c))
      (lift2 (· + ·) (p k (d.pil (j - 1) i) c) (p k (d.pil (j + 1) i) c))) s0
  let s2 := put d (fun j i => jm h j i && jp d h j i)
    (fun p k j i c => mean2 (p k (d.pil (j - 1) i) c) (p k (d.pil (j + 1) i) c)) s1
  let s3 := put d (fun j i => im h j i && ip d h j i)
    (fun p k j i c => mean2 (p k (d.pil j (i - 1)) c) (p k (d.pil j (i + 1)) c)) s2
  let s4 := put d (fun j i => jm h j i && im h j i)
    (fun p k j i c => pushed (!h (j - 1) (i - 1)) (p k (d.pil (j - 1) i) c) (p k (d.pil j (i - 1)) c)
      (p k (d.pil (j - 1) (i - 1)) c)) s3
  let s5 := put d (fun j i => jm h j i && ip d h j i)
    (fun p k j i c => pushed (!h (j - 1) (i + 1)) (p k (d.pil (j - 1) i) c) (p k (d.pil j (i + 1)) c)
      (p k (d.pil (j - 1) (i + 1)) c)) s4
  let s6 := put d (fun j i => jp d h j i && im h j i)
    (fun p k j i c => pushed (!h (j + 1) (i - 1)) (p k (d.pil (j + 1) i) c) (p k (d.pil j (i - 1)) c)
      (p k (d.pil (j + 1) (i - 1)) c)) s5
  put d (fun j i => jp d h j i && ip d h j i)
    (fun p k j i c => pushed (!h (j + 1) (i + 1)) (p k (d.pil (j + 1) i) c) (p k (d.pil j (i + 1)) c)
      (p k (d.pil (j + 1) (i + 1)) c)) s6

/-- `np.any` of a mask of pillars.; for `fillHoles` (_defined_geometry.py:485) -/
def any2 (d : Dims) (h : Arr2) : Bool := anyN (d.nj + 1) fun j => anyN (d.ni + 1) fun i => h j i

/-- `__fill_holes`, `_defined_geometry.py` lines 485-586. The first argument bounds the passes; a pass which clears no
hole ends the loop (lines 584-586). -/
def fillHoles (d : Dims) : Nat → Arr2 → Pts → Pts
  | 0, _, pts => pts
  | f + 1, h, pts =>
    if any2 d h then
      let s := holesPass d h pts
      if any2 d (fun j i => h j i && !s.left j i) then fillHoles d f s.left s.pts else s.pts
    else pts

/-- `np.nanmean`: the mean of the values which are not NaN, NaN if there are none; `_defined_geometry.py` lines 597 and
615. -/
def nanmean (l : List (Option Rat)) : Option Rat :=
  let v := l.filterMap id
  if v = [] then none else some (v.sum / (v.length : Rat))

/-- A view of x and y of the bottom layer of points on the primary pillars; `_defined_geometry.py` lines 593-594. -/
abbrev View := Nat → Nat → Fin 3 → Option Rat

/-- The mean difference between rows, one number for x and y together; `_defined_geometry.py` line 597. -/
def jVector (d : Dims) (v : View) : Option Rat :=
  nanmean ((List.range d.nj).flatMap fun j => (List.range (d.ni + 1)).flatMap fun i =>
    [lift2 (· - ·) (v (j + 1) i 0) (v j i 0), lift2 (· - ·) (v (j + 1) i 1) (v j i 1)])

/-- The mean difference between columns; `_defined_geometry.py` line 615. -/
def iVector (d : Dims) (v : View) : Option Rat :=
  nanmean ((List.range (d.nj + 1)).flatMap fun j => (List.range d.ni).flatMap fun i =>
    [lift2 (· - ·) (v j (i + 1) 0) (v j i 0), lift2 (· - ·) (v j (i + 1) 1) (v j i 1)])

/-- `while j > 0: view[j - 1] = view[j] - vector`; `_defined_geometry.py` lines 602-605. -/
def rowsDown (vec : Option Rat) : Nat → View → View
  | 0, v => v
  | j + 1, v => rowsDown vec j fun r i c => if r = j then lift2 (· - ·) (v (j + 1) i c) vec else v r i c

/-- `while j < nj - 1: view[j + 1] = view[j] + vector`; `_defined_geometry.py` lines 610-613. The second argument is
the number of steps. -/
def rowsUp (vec : Option Rat) : Nat → Nat → View → View
  | _, 0, v => v
  | j, f + 1, v => rowsUp vec (j + 1) f fun r i c => if r = j + 1 then lift2 (· + ·) (v j i c) vec else v r i c

/-- `while i > 0: view[:, i - 1] = view[:, i] - vector`; `_defined_geometry.py` lines 620-623. -/
def colsDown (vec : Option Rat) : Nat → View → View
  | 0, v => v
  | i + 1, v => colsDown vec i fun r q c => if q = i then lift2 (· - ·) (v r (i + 1) c) vec else v r q c

/-- `while i < ni - 1: view[:, i + 1] = view[:, i] + vector`; `_defined_geometry.py` lines 628-631. -/
def colsUp (vec : Option Rat) : Nat → Nat → View → View
  | _, 0, v => v
  | i, f + 1, v => colsUp vec (i + 1) f fun r q c => if q = i + 1 then lift2 (· + ·) (v r i c) vec else v r q c

/-- The part of `__fill_surround` along J; `_defined_geometry.py` lines 596-613. The second result tells whether
anything has been modified. -/
def fillRows (d : Dims) (sm : Arr2) (v : View) : Res (View × Bool) :=
  if 1 < d.nj then
    let vec := jVector d v
    let full := fun j => allN (d.ni + 1) fun i => sm j i
    let j0 := scanUp d.nj full d.nj 0
    if d.nj ≤ j0 then .error .assertion
    else
      let v1 := rowsDown vec j0 v
      let j1 := scanDown full (d.nj - 1)
      .ok (rowsUp vec j1 (d.nj - 1 - j1) v1, decide (0 < j0) || decide (j1 < d.nj - 1))
  else .ok (v, false)

/-- The part of `__fill_surround` along I; `_defined_geometry.py` lines 614-631. -/
def fillCols (d : Dims) (sm : Arr2) (v : View) : Res (View × Bool) :=
  if 1 < d.ni then
    let vec := iVector d v
    let full := fun i => allN (d.nj + 1) fun j => sm j i
    let i0 := scanUp d.ni full d.ni 0
    if d.ni ≤ i0 then .error .assertion
    else
      let v1 := colsDown vec i0 v
      let i1 := scanDown full (d.ni - 1)
      .ok (colsUp vec i1 (d.ni - 1 - i1) v1, decide (0 < i0) || decide (i1 < d.ni - 1))
  else .ok (v, false)

/-- `__fill_surround`, `_defined_geometry.py` lines 589-635. Writing to the view changes the bottom layer of the
points; the other layers are given the values of the view on the pillars of the surround when anything has been
modified. -/
def fillSurround (d : Dims) (sm : Arr2) (pts : Pts) : Res Pts := do
  let (v1, m1) ← fillRows d sm (fun j i c => pts d.nraw (d.pil j i) c)
  let (v2, m2) ← fillCols d sm v1
  return fun k q c =>
    let j := q / (d.ni + 1)
    let i := q % (d.ni + 1)
    if q < d.prim ∧ c ≠ 2 ∧ (k = d.nraw ∨ ((m1 || m2) = true ∧ sm j i = true)) then v2 j i c else pts k q c

/-- `__complete_all_pillars`, `_defined_geometry.py` lines 372-398, points only: holes, surround, z of coast and
surround, and zero for what is still missing. -/
def completeAll (d : Dims) (sz : Rat) (pts : Pts) : Res Pts := do
  let top := topNan d pts
  let sm := surround d top
  let co := coastal d top
  let hm : Arr2 := fun j i => top j i && !sm j i
  let p1 := if any2 d hm then fillHoles d d.prim hm pts else pts
  let p2 ← if any2 d sm then fillSurround d sm p1 else pure p1
  let p3 : Pts := fun k q c =>
    let j := q / (d.ni + 1)
    let i := q % (d.ni + 1)
    if q < d.prim ∧ c = 2 ∧ (sm j i || co j i) = true then some sz else p2 k q c
  return fun k q c => some ((p3 k q c).getD 0)

/-! ## Setting the flags -/

/-- Has a column of cells a missing point in a layer of points? `_defined_geometry.py` lines 315-316; primary pillars
only. -/
def colNan (d : Dims) (mask : Nat → Nat → Bool) (r j i : Nat) : Bool :=
  (mask r (d.pil j i) || mask r (d.pil j (i + 1))) || (mask r (d.pil (j + 1) i) || mask r (d.pil (j + 1) (i + 1)))

/-- The array of cells with geometry; `_defined_geometry.py` lines 318-322. -/
def cellsFromMask (d : Dims) (mask : Nat → Nat → Bool) : Arr3 := fun k j i =>
  let r := if d.kGaps then d.raw k else k
  !(colNan d mask r j i || colNan d mask (r + 1) j i)

/-- `np.all` over the cells.; for `updateCells` (_defined_geometry.py:353) -/
def allCellsOf (d : Dims) (a : Arr3) : Bool :=
  allN d.nk fun k => allN d.nj fun j => allN d.ni fun i => a k j i

/-- `np.all` over the primary pillars.; for `pillarQuery` (_defined_geometry.py:74) -/
def allPillarsOf (d : Dims) (a : Arr2) : Bool := allN (d.nj + 1) fun j => allN (d.ni + 1) fun i => a j i

/-- The cells brought up to date after points have been changed; `_defined_geometry.py` lines 353-369. -/
def updateCells (d : Dims) (s : St) : St :=
  if s.allPillars = some true then { s with allCells := some true, cellArr := none }
  else
    let top := topNan d s.pts
    let a : Arr3 := fun _ j i => !((top j i || top j (i + 1)) || (top (j + 1) i || top (j + 1) (i + 1)))
    if allCellsOf d a then { s with allCells := some true, cellArr := none }
    else { s with allCells := some false, cellArr := some a }

/-- The flags, arrays and points as they are before any completion; `_defined_geometry.py` lines 294-328. -/
def baseState (d : Dims) (mask : Nat → Nat → Bool) (s : St) : St :=
  let pd := fun q => !allN (d.nraw + 1) (fun k => mask k q)
  let cells := cellsFromMask d mask
  let inact : Arr3 := match s.inactive with
    | some f => fun k j i => f k j i || !cells k j i
    | none => fun k j i => !cells k j i
  { pts := fun k q c => if mask k q then none else s.pts k q c
    allPillars := some (allN d.total pd)
    pillarArr := if allN d.total pd then none else some fun j i => pd (d.pil j i)
    allCells := some false
    cellArr := some cells
    inactive := some inact
    allInactive := some (allCellsOf d inact) }

/-- Some points of the pillar are missing, but not all; `_defined_geometry.py` lines 300 and 336 or 342. -/
def partialPillar (d : Dims) (mask : Nat → Nat → Bool) (q : Nat) : Bool :=
  !allN (d.nraw + 1) (fun k => mask k q) && anyN (d.nraw + 1) (fun k => mask k q)

/-- Pillars defined only in part lose their points; `_defined_geometry.py` lines 338-339. The array of pillars is not
brought up to date. -/
def nullified (d : Dims) (mask : Nat → Nat → Bool) (s : St) : St :=
  { s with
    pts := fun k q c => if q < d.total ∧ partialPillar d mask q = true then none else s.pts k q c
    allPillars := some false }

/-- Pillars defined only in part are completed; `_defined_geometry.py` lines 345-346. The pillars do not depend on each
other, so the loop over them is written as one function of the pillar. -/
def infilled (d : Dims) (mask : Nat → Nat → Bool) (s : St) : St :=
  { s with
    pts := fun k q c =>
      if q < d.total ∧ partialPillar d mask q = true then
        infill d.nraw (fun t => (s.pts t q 0).isNone) (fun t => s.pts t q c) k
      else s.pts k q c }

/-- Treatment of pillars defined only in part; `_defined_geometry.py` lines 333-347. The second result tells whether
the cells have to be brought up to date. -/
def partialStage (d : Dims) (mask : Nat → Nat → Bool) (cp nullify : Bool) (s : St) : Res (St × Bool) :=
  if nullify then
    if anyN d.total (partialPillar d mask) then .ok (nullified d mask s, true) else .ok (s, false)
  else if cp then
    if anyN d.total (partialPillar d mask) then
      if anyN d.total (fun q => partialPillar d mask q && infillFails d.nraw fun k => (s.pts k q 0).isNone) then
        .error .assertion
      else .ok (infilled d mask s, true)
    else .ok (s, false)
  else .ok (s, false)

/-- All pillars are completed; `_defined_geometry.py` lines 349-351 with 387-389 and 395-397. -/
def allStage (d : Dims) (sz : Rat) (all : Bool) (r : St × Bool) : Res (St × Bool) :=
  if all then
    (completeAll d sz r.1.pts).map fun p =>
      ({ r.1 with pts := p, allPillars := some true, pillarArr := none, allCells := some true, cellArr := none }, true)
  else .ok r

/-- `set_geometry_is_defined`, `_defined_geometry.py` lines 229-369. `dots` is the result of `point_areally` when
`treat_dots_as_nan` is set; `sz` stands for the limit of z taken from `xyz_box` on line 298, any function of the
points. -/
def setDefined (d : Dims) (sz : Pts → Rat) (tn : Option Rat) (dots : Option Arr3)
    (completePartial nullify all : Bool) (s : St) : Res St :=
  if completePartial && nullify then .error .assertion
  else if !(anyN (d.nraw + 1) fun k => anyN d.total fun q => nanPoint tn (s.pts k q)) && !someDots d dots then
    .ok { s with allPillars := some true, pillarArr := none, allCells := some true, cellArr := none }
  else
    let mask := nanMask d tn (if someDots d dots then dots else none) s.pts
    if allN (d.nraw + 1) fun k => allN d.total fun q => mask k q then .error .assertion
    else do
      let r ← partialStage d mask (completePartial || (all && !nullify)) nullify (baseState d mask s)
      let r ← allStage d (sz (baseState d mask s).pts) all r
      return if r.2 then updateCells d r.1 else r.1

/-! ## The queries -/

/-- What is stored for the flags: a constant, or an array in the hdf5 file, which may be out of reach.
`_defined_geometry.py` lines 48-56 and 101-110. -/
inductive Node (α : Type) where
  | const (b : Bool)
  | h5 (a : Option α)

/-- `cell_geometry_is_defined`, `_defined_geometry.py` lines 12-71, with `_h5_array_element`, `model/_hdf5.py` lines
214-271, for the case without a required shape. The state is returned also when an exception is raised. -/
def cellQuery (d : Dims) (node : Option (Node Arr3)) (idx : Option (Nat × Nat × Nat)) (cache : Bool) (s : St) :
    Res (Option Bool) × St :=
  if s.allCells = some true then (.ok (some true), s)
  else
    match s.cellArr with
    | some a =>
      let s1 := { s with allCells := some (allCellsOf d a) }
      if allCellsOf d a then (.ok (some true), s1)
      else match idx with
        | none => (.ok (some false), s1)
        | some (k, j, i) => (.ok (some (a k j i)), s1)
    | none =>
      match node with
      | none =>
        let whole := !(anyN (d.nraw + 1) fun k => anyN d.total fun q => nanPoint none (s.pts k q))
        let s1 := { s with allCells := some whole }
        if whole || idx.isNone then (.ok (some whole), s1) else (.error .assertion, s1)
      | some (.const b) => (.ok (some b), { s with allCells := some b })
      | some (.h5 none) => (.ok none, s)
      | some (.h5 (some a)) =>
        let result := idx.map fun (k, j, i) => a k j i
        let s1 := if cache then { s with cellArr := some a } else s
        let s2 := if s.allCells = none ∧ cache = true then
            (if allCellsOf d a then { s1 with allCells := some true, cellArr := none }
             else { s1 with allCells := some false })
          else s1
        if idx.isNone then (.ok s2.allCells, s2) else (.ok result, s2)

/-- `pillar_geometry_is_defined`, `_defined_geometry.py` lines 74-123. -/
def pillarQuery (d : Dims) (node : Option (Node Arr2)) (idx : Option (Nat × Nat)) (cache : Bool) (s : St) :
    Res (Option Bool) × St :=
  if s.allPillars = some true then (.ok (some true), s)
  else
    match s.pillarArr with
    | some a =>
      match idx with
      | none => (.ok none, s)
      | some (j, i) => (.ok (some (a j i)), s)
    | none =>
      match node with
      | none => (.ok (some true), s)
      | some (.const b) => if b then (.ok (some true), { s with allPillars := some true }) else (.error .assertion, s)
      | some (.h5 none) => (.ok none, s)
      | some (.h5 (some a)) =>
        let result := idx.map fun (j, i) => a j i
        let s1 := if cache then { s with pillarArr := some a } else s
        let s2 := if s.allPillars = none ∧ cache = true then
            (if allPillarsOf d a then { s1 with allPillars := some true, pillarArr := none }
             else { s1 with allPillars := some false })
          else s1
        (.ok result, s2)

/-- Loop over the cells until one is not defined; `_defined_geometry.py` lines 145-152. -/
def cellLoop (d : Dims) (node : Option (Node Arr3)) : List (Nat × Nat × Nat) → St → Res Bool × St
  | [], s => (.ok true, s)
  | c :: rest, s =>
    match cellQuery d node (some c) false s with
    | (.error e, s1) => (.error e, s1)
    | (.ok r, s1) => if r = some true then cellLoop d node rest s1 else (.ok false, s1)

/-- The cells in the order of the loops; `_defined_geometry.py` lines 145-147. -/
def cellList (d : Dims) : List (Nat × Nat × Nat) :=
  (List.range d.nk).flatMap fun k => (List.range d.nj).flatMap fun j => (List.range d.ni).map fun i => (k, j, i)

/-- `geometry_defined_for_all_cells`, `_defined_geometry.py` lines 126-154. -/
def allCellsQuery (d : Dims) (node : Option (Node Arr3)) (cache : Bool) (s : St) : Res (Option Bool) × St :=
  match s.allCells with
  | some b => (.ok (some b), s)
  | none =>
    if cache then
      match cellQuery d node none true s with
      | (.error e, s1) => (.error e, s1)
      | (.ok _, s1) => (.ok s1.allCells, s1)
    else
      match node with
      | none => (.ok (some true), { s with allCells := some true })
      | some _ =>
        match cellLoop d node (cellList d) s with
        | (.error e, s1) => (.error e, s1)
        | (.ok b, s1) => (.ok (some b), { s1 with allCells := some b })

/-- Loop over pillars until one is not defined; `_defined_geometry.py` lines 178-185. -/
def pillarLoop (d : Dims) (node : Option (Node Arr2)) : List (Nat × Nat) → St → Res St
  | [], s => .ok s
  | c :: rest, s =>
    match pillarQuery d node (some c) false s with
    | (.error e, _) => .error e
    | (.ok r, s1) => if r = some true then pillarLoop d node rest s1 else .ok { s1 with allPillars := some false }

/-- The pillars in the order of the loops, whose limits are those of the cells; `_defined_geometry.py` lines
178-179. -/
def pillarList (d : Dims) : List (Nat × Nat) :=
  (List.range d.nj).flatMap fun j => (List.range d.ni).map fun i => (j, i)

/-- `geometry_defined_for_all_pillars`, `_defined_geometry.py` lines 157-186. -/
def allPillarsQuery (d : Dims) (node : Option (Node Arr2)) (cache : Bool) (s : St) : Res (Option Bool) × St :=
  match s.allPillars with
  | some b => (.ok (some b), s)
  | none =>
    if cache then
      match pillarQuery d node none true s with
      | (.error e, s1) => (.error e, s1)
      | (.ok _, s1) => (.ok s1.allPillars, s1)
    else
      let s0 := { s with allPillars := some true }
      match node with
      | none => (.ok (some true), s0)
      | some _ =>
        match pillarLoop d node (pillarList d) s0 with
        | .error e => (.error e, s0)
        | .ok s1 => (.ok s1.allPillars, s1)

end Verif.Defined
