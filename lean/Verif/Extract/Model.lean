import Verif.CpGrid.Model

/-! # Model of `extract_box`: a grid made of a box of the cells of another

`resqpy/derived_model/_extract_box.py`.  Simplifications throughout: the geometry of the source grid is defined everywhere (no arrays
of defined cells or pillars); titles, the coordinate reference system, parent windows and storage are left out. -/

namespace Verif.Extract
open Verif.Py

/-- the box: minimum and maximum kji0 indices, both inside -/
structure Box where
  k0 : Nat
  j0 : Nat
  i0 : Nat
  k1 : Nat
  j1 : Nat
  i1 : Nat
deriving DecidableEq

/-- _extract_box.py:88: extent of the box -/
def Box.nk (b : Box) : Nat := b.k1 - b.k0 + 1
/-- for `contribution` (_extract_box.py:280-330) -/
def Box.nj (b : Box) : Nat := b.j1 - b.j0 + 1
/-- for `localPillar` (_extract_box.py:184-191) -/
def Box.ni (b : Box) : Nat := b.i1 - b.i0 + 1

/-- What is used of a grid: number of layers, `k_gap_after_array` if there are K gaps, the pillar tables with the column counts, the
points by raw K index and pillar (natural or extra), and the inactive mask; for `Grid.raw` (_grid.py:329-340) -/
structure Grid (P : Type) where
  nk : Nat
  gaps : Option (List Bool)
  tables : Pillars.Grid
  pts : Nat → Nat → P
  inactive : Option (Nat → Nat → Nat → Bool)

/-- `k_raw_index_array`, or layer numbers if there are no K gaps (resqpy/grid/_grid.py:329-340) -/
def Grid.raw {P : Type} (g : Grid P) : List Nat :=
  match g.gaps with
  | none => List.range g.nk
  | some a => Gcs.rawIndex g.nk a

/-- `nk_plus_k_gaps`; for `extractBox` (_extract_box.py:20-171) -/
def Grid.nkPlusGaps {P : Type} (g : Grid P) : Nat :=
  match g.gaps with
  | none => g.nk
  | some a => g.nk + (a.filter id).length

/-- _extract_box.py:184-191 `_local_pillar_index` -/
def localPillar (g : Pillars.Grid) (b : Box) (p : Nat) : Option Nat :=
  let pj := p / (g.ni + 1)
  let pi := p % (g.ni + 1)
  if pj < b.j0 ∨ pi < b.i0 ∨ b.j1 - b.j0 + 1 < pj - b.j0 ∨ b.i1 - b.i0 + 1 < pi - b.i0 then none
  else some ((pj - b.j0) * (b.i1 - b.i0 + 2) + (pi - b.i0))

/-- _extract_box.py:194-206 `_cols_for_pillar`: the columns around a pillar; none for -1 -/
def colsForPillar (nj ni p : Nat) : List (Option Nat) :=
  let pj := p / (ni + 1)
  let pi := p % (ni + 1)
  [if 0 < pj ∧ 0 < pi then some ((pj - 1) * ni + (pi - 1)) else none,
   if 0 < pj ∧ pi < ni then some ((pj - 1) * ni + pi) else none,
   if pj < nj ∧ 0 < pi then some (pj * ni + (pi - 1)) else none,
   if pj < nj ∧ pi < ni then some (pj * ni + pi) else none]

/-- _extract_box.py:209-221 `_inherit_k_gaps`: `k_gap_after_array` of the new grid.  The raw indices computed at lines 215-220 are
those of `Grid.raw`, by the same loop. -/
def inheritGaps (gaps : Option (List Bool)) (b : Box) : Option (List Bool) :=
  match gaps with
  | none => none
  | some a =>
    if b.k0 < b.k1 then
      let s := (a.drop b.k0).take (b.k1 - b.k0)
      if 0 < (s.filter id).length then some s else none
    else none

/-- _extract_box.py:224-238 `_extract_inactive_cell_mask` -/
def inheritInactive (src boxInactive : Option (Nat → Nat → Nat → Bool)) (b : Box) : Option (Nat → Nat → Nat → Bool) :=
  match src, boxInactive with
  | none, none => none
  | none, some m => some m
  | some s, none => some fun k j i => s (b.k0 + k) (b.j0 + j) (b.i0 + i)
  | some s, some m => some fun k j i => s (b.k0 + k) (b.j0 + j) (b.i0 + i) || m k j i

/-- for `contribution` (_extract_box.py:280-330) -/
def insertUnique (x : Nat) : List Nat → List Nat
  | [] => [x]
  | y :: ys => if x < y then x :: y :: ys else if x = y then y :: ys else y :: insertUnique x ys

/-- `np.unique`: the values, sorted, without repeats; for `contribution` (_extract_box.py:280-330) -/
def npUnique (l : List Nat) : List Nat := l.foldr insertUnique []

/-- _extract_box.py:287-300: for each column around the pillar, the pillar of the source grid it uses as far as the extra pillar in
hand shows; none for -1 -/
def sourcePis (seg : List Nat) (source extra : Nat) (lcols cols : List (Option Nat)) : List (Option Nat) :=
  List.zipWith (fun lc c => match lc with
    | none => none
    | some _ => match c with
      | none => some source
      | some x => if x ∈ seg then some extra else some source) lcols cols

/-- what the loop body does for an extra pillar of the source grid: points put in the base array at a local pillar, and extra pillars
made: the source pillar and the local columns; for `contribution` (_extract_box.py:280-330) -/
structure Contribution where
  lp : Nat
  base : Nat
  extras : List (Nat × List Nat)
deriving DecidableEq

/-- loop body at _extract_box.py:280-330 for extra pillar `n` of the source grid -/
def contribution (g : Pillars.Grid) (b : Box) (n source : Nat) : Res (Option Contribution) :=
  match localPillar g b source with
  | none => .ok none
  | some lp =>
    match Pillars.segment g n with
    | .error e => .error e
    | .ok seg =>
      let lcols := colsForPillar b.nj b.ni lp
      let pis := sourcePis seg source ((g.nj + 1) * (g.ni + 1) + n) lcols (colsForPillar g.nj g.ni source)
      match npUnique (pis.filterMap id) with
      | [] => .ok none
      | u :: us => .ok (some ⟨lp, u, us.map fun v =>
          (v, (List.zip pis lcols).filterMap fun q => if q.1 = some v then q.2 else none)⟩)

/-- an extra pillar of the new grid: local natural pillar, source pillar its points are from, local columns; for `newTables` (_extract_box.py:331-341) -/
abbrev NewExtra := Nat × Nat × List Nat

/-- `base` holds, for each natural pillar of the new grid, the source pillar its points are from; for `splitLoop` (_extract_box.py:280-330) -/
structure State where
  base : Nat → Nat
  extras : List NewExtra

/-- loop at _extract_box.py:280-330, over the extra pillars of the source grid from `n` on -/
def splitLoop (g : Pillars.Grid) (b : Box) : List Nat → Nat → State → Res State
  | [], _, s => .ok s
  | p :: ps, n, s => match contribution g b n p with
    | .error e => .error e
    | .ok none => splitLoop g b ps (n + 1) s
    | .ok (some c) => splitLoop g b ps (n + 1)
        ⟨fun q => if q = c.lp then c.base else s.base q, s.extras ++ c.extras.map fun e => (c.lp, e.1, e.2)⟩

/-- _extract_box.py:266-273 (and 134): the natural pillars of the box -/
def initialBase (g : Pillars.Grid) (b : Box) (q : Nat) : Nat :=
  (b.j0 + q / (b.ni + 1)) * (g.ni + 1) + (b.i0 + q % (b.ni + 1))

/-- _extract_box.py:331-341: tables of the new grid -/
def newTables (b : Box) (extras : List NewExtra) : Pillars.Grid :=
  if extras = [] then ⟨b.nj, b.ni, false, [], [], []⟩
  else ⟨b.nj, b.ni, true, extras.map fun e => e.1, (extras.map fun e => e.2.2).flatten,
    CpGrid.cumLengths 0 (extras.map fun e => e.2.2)⟩

/-- points of the new grid: from plane `r0` of the source grid down -/
def newPts {P : Type} (pts : Nat → Nat → P) (b : Box) (r0 : Nat) (s : State) (r p : Nat) : P :=
  if p < (b.nj + 1) * (b.ni + 1) then pts (r0 + r) (s.base p)
  else pts (r0 + r) ((s.extras[p - (b.nj + 1) * (b.ni + 1)]?.map fun e => e.2.1).getD 0)

/-- _extract_box.py:20-171 `extract_box`, in memory.  The reshape at line 267 fails unless the planes of the box are as many as the
new grid has. -/
def extractBox {P : Type} (g : Grid P) (b : Box) (boxInactive : Option (Nat → Nat → Nat → Bool)) : Res (Grid P) :=
  if ¬ (b.k0 ≤ b.k1 ∧ b.j0 ≤ b.j1 ∧ b.i0 ≤ b.i1 ∧ b.k1 < g.nk ∧ b.j1 < g.tables.nj ∧ b.i1 < g.tables.ni) then .error .assertion
  else
    match g.raw[b.k0]?, g.raw[b.k1]? with
    | some r0, some r1 =>
      let n : Grid P := ⟨b.nk, inheritGaps g.gaps b, ⟨b.nj, b.ni, false, [], [], []⟩,
        newPts g.pts b r0 ⟨initialBase g.tables b, []⟩, inheritInactive g.inactive boxInactive b⟩
      if g.tables.hasSplit then
        if r1 + 1 - r0 = n.nkPlusGaps then
          match splitLoop g.tables b g.tables.spi 0 ⟨initialBase g.tables b, []⟩ with
          | .error e => .error e
          | .ok s => .ok { n with tables := newTables b s.extras, pts := newPts g.pts b r0 s }
        else .error .value
      else .ok n
    | _, _ => .error .index

end Verif.Extract
