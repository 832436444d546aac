import Verif.Py.Basic

/-! # Pillars of a block grid with split coordinate lines

Models of functions in `resqpy/grid/_pillars.py`, `resqpy/grid/_face_functions.py` and `resqpy/olio/grid_functions.py`.
Arrays are functions of their indices, meaningful within the stated extents. -/

namespace Verif.Pillars
open Verif.Py

/-- What the functions use of a grid: column counts and, for each extra pillar, the primary pillar it splits from
(`split_pillar_indices_cached`) and the columns it serves (`cols_for_split_pillars`, with cumulative lengths
`cols_for_split_pillars_cl`).  All are non-negative.; for `segStart` (_pillars.py:54-57) -/
structure Grid where
  nj : Nat
  ni : Nat
  hasSplit : Bool
  spi : List Nat
  cols : List Nat
  cl : List Nat
deriving DecidableEq

/-- list subscript; for `segStart` (_pillars.py:54-57) -/
def at? (l : List Nat) (n : Nat) : Res Nat :=
  match l[n]? with
  | none => .error .index
  | some x => .ok x

/-- first index of the columns of an extra pillar, _pillars.py:54-57 and 99-102 -/
def segStart (g : Grid) (n : Nat) : Res Nat := if n = 0 then .ok 0 else at? g.cl (n - 1)

/-- subscripts of a range of indices; for `segment` (_pillars.py:58-59) -/
def readAll (l : List Nat) : List Nat → Res (List Nat)
  | [] => .ok []
  | x :: xs => match at? l x with
    | .error e => .error e
    | .ok y => match readAll l xs with
      | .error e => .error e
      | .ok ys => .ok (y :: ys)

/-- the columns listed for extra pillar `n`: the values taken by `col` in the loops at _pillars.py:58-59 and 103-104.
Simplification: all are read before the first is used. -/
def segment (g : Grid) (n : Nat) : Res (List Nat) :=
  match segStart g n with
  | .error e => .error e
  | .ok a => match at? g.cl n with
    | .error e => .error e
    | .ok b => readAll g.cols (List.range' a (b - a))

/-- shape (nj, ni, 2, 2) -/
abbrev Mapping := Nat → Nat → Nat → Nat → Nat

/-- assignment to one element; for `placeCol` (_pillars.py:60-64) -/
def Mapping.set (m : Mapping) (j i jp ip v : Nat) : Mapping :=
  fun j' i' jp' ip' => if j' = j ∧ i' = i ∧ jp' = jp ∧ ip' = ip then v else m j' i' jp' ip'

/-- _pillars.py:41-45 -/
def unsplitMapping (g : Grid) : Mapping := fun j i jp ip => (j + jp) * (g.ni + 1) + i + ip

/-- loop body at _pillars.py:60-64: `pj - j` is compared with 0 and 1 -/
def placeCol (g : Grid) (primary v : Nat) (m : Mapping) (col : Nat) : Res Mapping :=
  if g.ni = 0 then .error .zeroDiv
  else
    let pj := primary / (g.ni + 1)
    let pi := primary % (g.ni + 1)
    let j := col / g.ni
    let i := col % g.ni
    if (pj = j ∨ pj = j + 1) ∧ (pi = i ∨ pi = i + 1) then
      if j < g.nj then .ok (m.set j i (pj - j) (pi - i) v) else .error .index
    else .error .assertion

/-- loop at _pillars.py:58-64 -/
def placeCols (g : Grid) (primary v : Nat) : List Nat → Mapping → Res Mapping
  | [], m => .ok m
  | c :: cs, m => match placeCol g primary v m c with
    | .error e => .error e
    | .ok m => placeCols g primary v cs m

/-- loop at _pillars.py:50-64 over the extra pillars from `n` on, `ps` being their primaries -/
def placeExtras (g : Grid) : List Nat → Nat → Mapping → Res Mapping
  | [], _, m => .ok m
  | p :: ps, n, m => match segment g n with
    | .error e => .error e
    | .ok cs => match placeCols g p ((g.nj + 1) * (g.ni + 1) + n) cs m with
      | .error e => .error e
      | .ok m => placeExtras g ps (n + 1) m

/-- _pillars.py:12-65 `create_column_pillar_mapping` (first call; later calls return the same array) -/
def columnPillarMapping (g : Grid) : Res Mapping :=
  if g.hasSplit then placeExtras g g.spi 0 (unsplitMapping g) else .ok (unsplitMapping g)

/-- shape (2, 2) -/
abbrev Foursome := Nat → Nat → Nat

/-- loop body at _pillars.py:104-109 -/
def fourCol (g : Grid) (j0 i0 v : Nat) (f : Foursome) (col : Nat) : Res Foursome :=
  if g.ni = 0 then .error .zeroDiv
  else
    let j := col / g.ni
    let i := col % g.ni
    if (j + 1 = j0 ∨ j = j0) ∧ (i + 1 = i0 ∨ i = i0) then
      .ok fun jp ip => if jp = j + 1 - j0 ∧ ip = i + 1 - i0 then v else f jp ip
    else .error .assertion

/-- loop at _pillars.py:103-109 -/
def fourCols (g : Grid) (j0 i0 v : Nat) : List Nat → Foursome → Res Foursome
  | [], f => .ok f
  | c :: cs, f => match fourCol g j0 i0 v f c with
    | .error e => .error e
    | .ok f => fourCols g j0 i0 v cs f

/-- loop at _pillars.py:98-109, over extra pillars from `n` on, skipping those not from the primary (`extras`, line 91) -/
def fourExtras (g : Grid) (j0 i0 : Nat) : List Nat → Nat → Foursome → Res Foursome
  | [], _, f => .ok f
  | p :: ps, n, f =>
    if p = (g.ni + 1) * j0 + i0 then
      match segment g n with
      | .error e => .error e
      | .ok cs => match fourCols g j0 i0 ((g.nj + 1) * (g.ni + 1) + n) cs f with
        | .error e => .error e
        | .ok f => fourExtras g j0 i0 ps (n + 1) f
    else fourExtras g j0 i0 ps (n + 1) f

/-- _pillars.py:69-111 `pillar_foursome` -/
def pillarFoursome (g : Grid) (j0 i0 : Nat) (noneIfUnsplit : Bool) : Res (Option Foursome) :=
  let primary := (g.ni + 1) * j0 + i0
  let plain : Res (Option Foursome) := .ok (if noneIfUnsplit then none else some fun _ _ => primary)
  if !g.hasSplit then plain
  else if ¬ primary ∈ g.spi then plain
  else match g.cl.getLast? with
    | none => .error .index
    | some e =>
      if g.cols.length = e then
        match fourExtras g j0 i0 g.spi 0 (fun _ _ => primary) with
        | .error e => .error e
        | .ok f => .ok (some f)
      else .error .assertion

/-- _face_functions.py:13-45 `is_split_column_face` once the mapping is there -/
def isSplitFace (g : Grid) (m : Mapping) (j0 i0 axis : Nat) (polarity : Bool) : Res Bool :=
  if !g.hasSplit then .ok false
  else if axis = 1 then
    if polarity then
      if j0 + 1 = g.nj then .ok false
      else .ok (m j0 i0 1 0 != m (j0 + 1) i0 0 0 || m j0 i0 1 1 != m (j0 + 1) i0 0 1)
    else
      if j0 = 0 then .ok false
      else .ok (m j0 i0 0 0 != m (j0 - 1) i0 1 0 || m j0 i0 0 1 != m (j0 - 1) i0 1 1)
  else if axis = 2 then
    if polarity then
      if i0 + 1 = g.ni then .ok false
      else .ok (m j0 i0 0 1 != m j0 (i0 + 1) 0 0 || m j0 i0 1 1 != m j0 (i0 + 1) 1 0)
    else
      if i0 = 0 then .ok false
      else .ok (m j0 i0 0 0 != m j0 (i0 - 1) 0 1 || m j0 i0 1 0 != m j0 (i0 - 1) 1 1)
  else .error .assertion

/-- `_face_functions.py:13-45 is_split_column_face` -/
def isSplitColumnFace (g : Grid) (j0 i0 axis : Nat) (polarity : Bool) : Res Bool :=
  if !g.hasSplit then .ok false
  else match columnPillarMapping g with
    | .error e => .error e
    | .ok m => isSplitFace g m j0 i0 axis polarity

/-- a boolean array of two dimensions; for `markIf` (_face_functions.py:69-78) -/
abbrev Flags := Nat → Nat → Bool

/-- for `markIf` (_face_functions.py:69-78) -/
def Flags.setTrue (f : Flags) (j i : Nat) : Flags := fun j' i' => if j' = j ∧ i' = i then true else f j' i'

/-- `if c and grid.is_split_column_face(...): array[...] = True`.  The calls at _face_functions.py:69-78 have axis 1 or 2
and cannot raise. -/
def markIf (c : Bool) (s : Res Bool) (f : Flags) (j i : Nat) : Flags :=
  if c && (match s with | .ok b => b | .error _ => false) then f.setTrue j i else f

/-- loop body at _face_functions.py:67-78 -/
def faceStep (g : Grid) (m : Mapping) (s : Flags × Flags) (spi : Nat) : Flags × Flags :=
  let jp := spi / (g.ni + 1)
  let ip := spi % (g.ni + 1)
  let fj :=
    if 0 < jp ∧ jp < g.nj then
      let f := markIf (0 < ip) (isSplitFace g m jp (ip - 1) 1 false) s.1 (jp - 1) (ip - 1)
      markIf (ip + 1 < g.ni) (isSplitFace g m jp ip 1 false) f (jp - 1) ip
    else s.1
  let fi :=
    if 0 < ip ∧ ip < g.ni then
      let f := markIf (0 < jp) (isSplitFace g m (jp - 1) ip 2 false) s.2 (jp - 1) (ip - 1)
      markIf (jp + 1 < g.nj) (isSplitFace g m jp ip 2 false) f jp (ip - 1)
    else s.2
  (fj, fi)

/-- _face_functions.py:48-79 `split_column_faces`: the J array of shape (nj - 1, ni) and the I array of shape (nj, ni - 1).
Simplification: the J array is `None` when nj = 1 (and the I array when ni = 1), which is here an array without elements. -/
def splitColumnFaces (g : Grid) : Res (Option (Flags × Flags)) :=
  if !g.hasSplit then .ok none
  else match columnPillarMapping g with
    | .error e => .error e
    | .ok m => .ok (some (g.spi.foldl (faceStep g m) (fun _ _ => false, fun _ _ => false)))

/-- `abutting`, grid_functions.py:532-536 -/
def abutting (g : Grid) (f : Flags × Flags) : Flags := fun j i =>
  (decide (j + 1 < g.nj) && f.1 j i) || (decide (0 < j) && f.1 (j - 1) i) ||
  (decide (i + 1 < g.ni) && f.2 j i) || (decide (0 < i) && f.2 j (i - 1))

/-- an integer array of two dimensions; for `relax` (grid_functions.py:537-546) -/
abbrev Table := Nat → Nat → Nat

/-- grid_functions.py:537-546: `framed` has a border holding nj + ni, which is never changed -/
def relax (g : Grid) (t : Table) : Table := fun j i =>
  let up := if 0 < j then t (j - 1) i else g.nj + g.ni
  let down := if j + 1 < g.nj then t (j + 1) i else g.nj + g.ni
  let left := if 0 < i then t j (i - 1) else g.nj + g.ni
  let right := if i + 1 < g.ni then t j (i + 1) else g.nj + g.ni
  min (min (min (min (t j i) (up + 1)) (down + 1)) (left + 1)) (right + 1)

/-- `np.all(updated == framed[1:-1, 1:-1])` -/
def sameTable (g : Grid) (t u : Table) : Bool :=
  (List.range g.nj).all fun j => (List.range g.ni).all fun i => t j i == u j i

/-- loop at grid_functions.py:540-548; the first argument bounds the number of iterations -/
def relaxLoop (g : Grid) : Nat → Table → Option Table
  | 0, _ => none
  | fuel + 1, t => if sameTable g (relax g t) t then some t else relaxLoop g fuel (relax g t)

/-- grid_functions.py:522-550 `columns_to_nearest_split_face`, with a bound on the number of iterations (the outer `none`
when it is used up) -/
def nearestSplitFace (fuel : Nat) (g : Grid) : Option (Res (Option Table)) :=
  match splitColumnFaces g with
  | .error e => some (.error e)
  | .ok none => some (.ok none)
  | .ok (some f) =>
    (relaxLoop g fuel fun j i => if abutting g f j i then 0 else g.nj + g.ni).map fun t => .ok (some t)

end Verif.Pillars
