import Verif.Pillars.Model
import Verif.Gcs.FaceArrays
import Mathlib.Algebra.Order.Field.Basic

/-! # Model of `grid_from_cp`: a grid object from an array of corner points

`resqpy/rq_import/_grid_from_cp.py`.  Numbers are exact.  Simplifications throughout: the geometry is defined for every cell
(no `treat_as_nan`, no NaN in the array), so that no element of the masked arrays is masked; every extent is at least one. -/

namespace Verif.CpGrid
open Verif.Py

variable {K : Type} [Field K] [LinearOrder K]

/-- a point; for `aligned` (_grid_from_cp.py:323-327) -/
abbrev Pt (K : Type) := K × K × K

/-- corner points, in nexus ordering: indices k, j, i, kp, jp, ip; for `layerGap` (_grid_from_cp.py:203-204) -/
abbrev Cp (K : Type) := Nat → Nat → Nat → Nat → Nat → Nat → Pt K

/-- the largest of the absolute differences in x, y and z; for `layerGap` (_grid_from_cp.py:203-204) -/
def dist (a b : Pt K) : K := max |a.1 - b.1| (max |a.2.1 - b.2.1| |a.2.2 - b.2.2|)

/-- point halfway between; for `closeVoids` (_grid_from_cp.py:223-229) -/
def midPt (a b : Pt K) : Pt K := ((a.1 + b.1) * (1 / 2), (a.2.1 + b.2.1) * (1 / 2), (a.2.2 + b.2.2) * (1 / 2))

/-- all (j, i, jp, ip); for `layerGap` (_grid_from_cp.py:203-204) -/
def corners (nj ni : Nat) : List (Nat × Nat × Nat × Nat) :=
  (List.range nj).flatMap fun j => (List.range ni).flatMap fun i =>
    [(j, i, 0, 0), (j, i, 0, 1), (j, i, 1, 0), (j, i, 1, 1)]

/-- _grid_from_cp.py:203-204: the largest distance between a corner at the base of layer `k` and the same corner at the top of
layer `k + 1`.  Simplification: the maximum over x, y and z is taken at once (line 219 takes it later). -/
def layerGap (nj ni : Nat) (cp : Cp K) (k : Nat) : K :=
  ((corners nj ni).map fun c => dist (cp (k + 1) c.1 c.2.1 0 c.2.2.1 c.2.2.2) (cp k c.1 c.2.1 1 c.2.2.1 c.2.2.2)).foldl max 0

/-- _grid_from_cp.py:205: maximum over layers -/
def maxGap (nk nj ni : Nat) (cp : Cp K) : K := ((List.range (nk - 1)).map (layerGap nj ni cp)).foldl max 0

/-- _grid_from_cp.py:223-229 and 232-238: the void below layer `k` is closed, for the layers selected: half the gap is taken from
the top of the layer below and half is added to the base of the layer above (x and y included) -/
def closeVoids (nk : Nat) (sel : Nat → Bool) (cp : Cp K) : Cp K := fun k j i kp jp ip =>
  if kp = 0 then
    if 0 < k ∧ k < nk ∧ sel (k - 1) = true then midPt (cp (k - 1) j i 1 jp ip) (cp k j i 0 jp ip) else cp k j i kp jp ip
  else
    if k + 1 < nk ∧ sel k = true then midPt (cp k j i 1 jp ip) (cp (k + 1) j i 0 jp ip) else cp k j i kp jp ip

/-- loop at _grid_from_cp.py:218-230 over layers from `k`: the gap count so far, the flags and the raw indices of the layers after
the first -/
def gapDetails (gap : Nat → K) (maxVoid : K) : List Nat → Nat → List Bool × List Nat × Nat
  | [], n => ([], [], n)
  | k :: ks, n =>
    let n' := if maxVoid < gap k then n + 1 else n
    let r := gapDetails gap maxVoid ks n'
    (decide (maxVoid < gap k) :: r.1, (k + n') :: r.2.1, r.2.2)

/-- K gaps: count, flag after each layer but the last, raw index by layer; `none` for `None`; for `checkForKGaps` (_grid_from_cp.py:195-238) -/
structure Gaps where
  count : Option Nat
  after : Option (List Bool)
  raw : List Nat
deriving DecidableEq

/-- _grid_from_cp.py:195-238 `__check_for_kgaps`, `__get_kgaps_details` and `__close_gaps`, with the default raw index of lines
551-552.  The corner point array is changed in place. -/
def checkForKGaps (nk nj ni : Nat) (maxVoid : K) (cp : Cp K) : Gaps × Cp K :=
  if 1 < nk then
    if maxVoid < maxGap nk nj ni cp then
      let d := gapDetails (layerGap nj ni cp) maxVoid (List.range (nk - 1)) 0
      (⟨some d.2.2, some d.1, 0 :: d.2.1⟩,
        closeVoids nk (fun k => !decide (maxVoid < layerGap nj ni cp k) && decide (0 < layerGap nj ni cp k)) cp)
    else if 0 < maxGap nk nj ni cp then (⟨none, none, List.range nk⟩, closeVoids nk (fun _ => true) cp)
    else (⟨none, none, List.range nk⟩, cp)
  else (⟨none, none, List.range nk⟩, cp)

/-- corner of a column: (j, i) and (jp, ip); for `innerPlanes` (_grid_from_cp.py:257-269) -/
abbrev Plane (K : Type) := Nat × Nat → Nat × Nat → Pt K

/-- for `innerPlanes` (_grid_from_cp.py:257-269) -/
def topOf (cp : Cp K) (k : Nat) : Plane K := fun col c => cp k col.1 col.2 0 c.1 c.2
/-- for `innerPlanes` (_grid_from_cp.py:257-269) -/
def baseOf (cp : Cp K) (k : Nat) : Plane K := fun col c => cp k col.1 col.2 1 c.1 c.2

/-- planes between layers: loop at _grid_from_cp.py:257-269, or lines 249-253 if there is no K gap -/
def innerPlanes (cp : Cp K) : List Nat → List Bool → List (Plane K)
  | [], _ => []
  | k :: ks, [] => topOf cp (k + 1) :: innerPlanes cp ks []
  | k :: ks, g :: gs =>
    if g = true then baseOf cp k :: topOf cp (k + 1) :: innerPlanes cp ks gs else topOf cp (k + 1) :: innerPlanes cp ks gs

/-- _grid_from_cp.py:240-270: planes of points, by raw index -/
def reducedPlanes (nk : Nat) (after : List Bool) (cp : Cp K) : List (Plane K) :=
  topOf cp 0 :: (innerPlanes cp (List.range (nk - 1)) after ++ [baseOf cp (nk - 1)])

/-- the line of points at a corner of a column, `k_reduced_cp_array[:, j, i, jp, ip, :]`; for `gridFromCp` (_grid_from_cp.py:525-591) -/
def trace (pl : List (Plane K)) (col c : Nat × Nat) : List (Pt K) := pl.map fun p => p col c

/-- _grid_from_cp.py:272-293 `__get_primary_pillar_ref`: which of the columns around pillar (j, i) gives its points; the pillar is
at the corner (jp, ip) of column (j - jp, i - ip) -/
def primaryJip (nj ni : Nat) (active : Nat → Nat → Bool) (p : Nat × Nat) : Nat × Nat :=
  let jp := if p.1 = nj then 1 else 0
  let ip := if p.2 = ni then 1 else 0
  if active (p.1 - jp) (p.2 - ip) then (jp, ip)
  else if 0 < p.2 ∧ ip = 0 ∧ active (p.1 - jp) (p.2 - 1) = true then (jp, 1)
  else if 0 < p.1 ∧ jp = 0 ∧ active (p.1 - 1) (p.2 - ip) = true then (1, ip)
  else if 0 < p.2 ∧ 0 < p.1 ∧ jp = 0 ∧ ip = 0 ∧ active (p.1 - 1) (p.2 - 1) = true then (1, 1)
  else (jp, ip)

/-- `discrepancy <= split_tolerance`, _grid_from_cp.py:323-327 and 332-336 -/
def aligned (tol : K) (a b : List (Pt K)) : Bool := (List.zipWith dist a b).all fun d => decide (d ≤ tol)

/-- extra pillars: number at each pillar, index in the list of the first, the list of (jp, ip), and the extra used at a corner of a
column (none for -1), _grid_from_cp.py:296-302 -/
structure Extras where
  count : Nat × Nat → Nat
  index : Nat × Nat → Nat
  list : List (Nat × Nat)
  use : Nat × Nat → Nat × Nat → Option Nat

/-- there is a column whose corner `c` is at pillar `p`; for `appendSingle` (_grid_from_cp.py:317-346) -/
def hasCol (nj ni : Nat) (p c : Nat × Nat) : Prop := c.1 ≤ p.1 ∧ p.1 - c.1 < nj ∧ c.2 ≤ p.2 ∧ p.2 - c.2 < ni

instance (nj ni : Nat) (p c : Nat × Nat) : Decidable (hasCol nj ni p c) :=
  inferInstanceAs (Decidable (c.1 ≤ p.1 ∧ p.1 - c.1 < nj ∧ c.2 ≤ p.2 ∧ p.2 - c.2 < ni))

/-- the column whose corner `c` is at pillar `p`; for `appendSingle` (_grid_from_cp.py:317-346) -/
def colOf (p c : Nat × Nat) : Nat × Nat := (p.1 - c.1, p.2 - c.2)

/-- for `appendSingle` (_grid_from_cp.py:317-346) -/
def upd {β : Type} (f : Nat × Nat → β) (a : Nat × Nat) (b : β) : Nat × Nat → β := fun x => if x = a then b else f x

/-- _grid_from_cp.py:317-346 `__append_single_pillar`, with the test at lines 356-357.  `tr` gives lines of points. -/
def appendSingle (nj ni : Nat) (tol : K) (tr : Nat × Nat → Nat × Nat → List (Pt K)) (p prim : Nat × Nat) (s : Extras)
    (c : Nat × Nat) : Extras :=
  if ¬ hasCol nj ni p c then s
  else if c = prim then s
  else if aligned tol (tr (colOf p c) c) (tr (colOf p prim) prim) then s
  else
    let q (e : Nat) := s.list.getD (s.index p + e) (0, 0)
    match (List.range (s.count p)).find? fun e => aligned tol (tr (colOf p c) c) (tr (colOf p (q e)) (q e)) with
    | some e => { s with use := upd s.use (colOf p c) (upd (s.use (colOf p c)) c (some e)) }
    | none =>
      { count := upd s.count p (s.count p + 1)
        index := if s.count p = 0 then upd s.index p s.list.length else s.index
        list := s.list ++ [c]
        use := upd s.use (colOf p c) (upd (s.use (colOf p c)) c (some (s.count p))) }

/-- the four corners, in the order of the loops; for `appendExtra` (_grid_from_cp.py:348-359) -/
def four : List (Nat × Nat) := [(0, 0), (0, 1), (1, 0), (1, 1)]

/-- pillars in the order of the loops; for `extraRefs` (_grid_from_cp.py:295-315) -/
def pillars (nj ni : Nat) : List (Nat × Nat) := (List.range (nj + 1)).flatMap fun j => (List.range (ni + 1)).map fun i => (j, i)

/-- for `extraRefs` (_grid_from_cp.py:295-315) -/
def noExtras : Extras := ⟨fun _ => 0, fun _ => 0, [], fun _ _ => none⟩

/-- _grid_from_cp.py:348-359 `__append_extra_pillars` -/
def appendExtra (nj ni : Nat) (tol : K) (tr : Nat × Nat → Nat × Nat → List (Pt K)) (active : Nat → Nat → Bool) (s : Extras)
    (p : Nat × Nat) : Extras :=
  four.foldl (appendSingle nj ni tol tr p (primaryJip nj ni active p)) s

/-- _grid_from_cp.py:295-315 `__get_extra_pillar_ref` -/
def extraRefs (nj ni : Nat) (tol : K) (tr : Nat × Nat → Nat × Nat → List (Pt K)) (active : Nat → Nat → Bool) (split : Bool) : Extras :=
  if split then (pillars nj ni).foldl (appendExtra nj ni tol tr active) noExtras else noExtras

/-- the extra pillars in the order of the loops at _grid_from_cp.py:395-408 and 460-463: pillar and number -/
def extraOrder (nj ni : Nat) (s : Extras) : List ((Nat × Nat) × Nat) :=
  (pillars nj ni).flatMap fun p => (List.range (s.count p)).map fun e => (p, e)

/-- _grid_from_cp.py:361-408: the lines of points by pillar, primaries first -/
def pointLines (nj ni : Nat) (tr : Nat × Nat → Nat × Nat → List (Pt K)) (active : Nat → Nat → Bool) (s : Extras) : List (List (Pt K)) :=
  ((pillars nj ni).map fun p => let c := primaryJip nj ni active p; tr (colOf p c) c) ++
  (extraOrder nj ni s).map fun q => let c := s.list.getD (s.index q.1 + q.2) (0, 0); tr (colOf q.1 c) c

/-- columns using an extra pillar, _grid_from_cp.py:435-448 -/
def usersOf (nj ni : Nat) (s : Extras) (p : Nat × Nat) (e : Nat) : List Nat :=
  (four.filter fun c => decide (hasCol nj ni p c) && decide (s.use (colOf p c) c = some e)).map fun c =>
    (colOf p c).1 * ni + (colOf p c).2

/-- cumulative lengths; for `splitTables` (_grid_from_cp.py:453-473) -/
def cumLengths : Nat → List (List Nat) → List Nat
  | _, [] => []
  | n, l :: ls => (n + l.length) :: cumLengths (n + l.length) ls

/-- _grid_from_cp.py:453-473: the split pillar tables of the grid.  The assertions on lengths hold by construction, except that each
extra pillar has users, line 449. -/
def splitTables (nj ni : Nat) (split : Bool) (s : Extras) : Res Pillars.Grid :=
  if split then
    let users := (extraOrder nj ni s).map fun q => usersOf nj ni s q.1 q.2
    if users.any (fun u => u.isEmpty) then .error .assertion
    else .ok ⟨nj, ni, true, (extraOrder nj ni s).map fun q => q.1.1 * (ni + 1) + q.1.2, users.flatten, cumLengths 0 users⟩
  else .ok ⟨nj, ni, false, [], [], []⟩

/-- _grid_from_cp.py:475-488: the column to pillar mapping kept with the new grid object -/
def pillarsForColumn (nj ni : Nat) (split : Bool) (s : Extras) : Pillars.Mapping := fun j i jp ip =>
  match split, s.use (j, i) (jp, ip) with
  | true, some e => (nj + 1) * (ni + 1) + (s.index (j + jp, i + ip) + e)
  | _, _ => (j + jp) * (ni + 1) + i + ip

/-- what is known of a grid object: layers, K gap data, split tables, mapping and lines of points; for `gridFromCp` (_grid_from_cp.py:525-591) -/
structure Result (K : Type) where
  nk : Nat
  gaps : Gaps
  tables : Pillars.Grid
  mapping : Pillars.Mapping
  lines : List (List (Pt K))

/-- _grid_from_cp.py:525-591 `create_grid`.  `active j i` holds if any cell of the column is active (line 559). -/
def gridFromCp (nk nj ni : Nat) (cp : Cp K) (active : Nat → Nat → Bool) (maxVoid : K) (split : Bool) (tol : K) : Res (Result K) :=
  let r := checkForKGaps nk nj ni maxVoid cp
  let planes := reducedPlanes nk (r.1.after.getD []) r.2
  let s := extraRefs nj ni tol (trace planes) active split
  let split := split && !s.list.isEmpty
  match splitTables nj ni split s with
  | .error e => .error e
  | .ok t => .ok ⟨nk, r.1, t, pillarsForColumn nj ni split s, pointLines nj ni (trace planes) active s⟩

/-- `Grid.point`, _points_functions.py:272-312: the corner of a cell, given the raw layer indices and the mapping -/
def point (raw : List Nat) (m : Pillars.Mapping) (lines : List (List (Pt K))) (k j i kp jp ip : Nat) : Option (Pt K) :=
  match raw[k]? with
  | none => none
  | some r => match lines[m j i jp ip]? with
    | none => none
    | some l => l[r + kp]?

/-- raw layer indices of a grid read back from file: _extract_functions.py:403-426 with _grid.py:329-339 -/
def reloadedRaw (g : Result K) : List Nat :=
  match g.gaps.count, g.gaps.after with
  | some (_ + 1), some a => Gcs.rawIndex g.nk a
  | _, _ => List.range g.nk

/-- corner of a cell of the grid object returned, as grid/_points_functions.py:272-311 reads it -/
def memoryPoint (g : Result K) (k j i kp jp ip : Nat) : Option (Pt K) := point g.gaps.raw g.mapping g.lines k j i kp jp ip

/-- corner of a cell of the grid when read back from file, where the mapping is made again from the split tables.
Simplification: the arrays are read back as written (see C16-C18). -/
def reloadedPoint (g : Result K) (k j i kp jp ip : Nat) : Res (Option (Pt K)) :=
  match Pillars.columnPillarMapping g.tables with
  | .error e => .error e
  | .ok m => .ok (point (reloadedRaw g) m g.lines k j i kp jp ip)

end Verif.CpGrid
