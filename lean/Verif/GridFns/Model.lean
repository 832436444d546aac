import Verif.Py.Basic
import Mathlib.Algebra.Order.Field.Basic

/-! # Model of parts of `resqpy/olio/grid_functions.py` -/

namespace Verif.GridFns
open Verif.Py

/-! ## Resequencing of corner points -/

/-- corner points: indices k, j, i, kp, jp, ip and coordinate; for `resequence` (grid_functions.py:210-240) -/
abbrev Corp (α : Type) := Nat → Nat → Nat → Nat → Nat → Nat → Nat → α

/-- element at a position of the 24 values of a cell in storage order: `corner_points[k, j, i].reshape((3, 8))` has element
(x, c) at position 8 x + c -/
def flatCell {α : Type} (cp : Corp α) (k j i n : Nat) : α := cp k j i (n / 12) (n / 6 % 2) (n / 3 % 2) (n % 3)

/-- grid_functions.py:210-240 `resequence_nexus_corp`.  Every element is assigned once from a copy, so the loops are written
as a function of the index: with `undo`, `xyz[x, c]` is coordinate x of corner c = 4 kp + 2 jp + ip and the result is `xyz` in
storage order; without, corner c takes `xyz[:, c]`. -/
def resequence {α : Type} (cp : Corp α) (eightMode undo : Bool) : Corp α := fun k j i kp jp ip x =>
  if eightMode then
    if undo then
      let n := ((kp * 2 + jp) * 2 + ip) * 3 + x
      let c := n % 8
      cp k j i (c / 4) (c / 2 % 2) (c % 2) (n / 8)
    else flatCell cp k j i (8 * x + (kp * 4 + jp * 2 + ip))
  else if jp = 1 then cp k j i kp jp (1 - ip) x else cp k j i kp jp ip x

/-! ## Translating corner points -/

/-- grid_functions.py:406-429 `translate_corp` for one of x and y; `m` is the minimum over all corners, `scale` is
10 ^ preserve_digits.  Exact arithmetic stands for floats; the whole number part is passed in as the function `floor`. -/
def translateShift {K : Type} [Field K] (floor : K → K) (m : K) (shift minXy scale : Option K) : K :=
  let sub := match shift with
    | some s => -s
    | none => m - minXy.getD 0
  match scale with
  | some d => d * floor (sub / d)
  | none => sub

/-! ## Sides of a line of pillars -/

/-- for `entryTuples` (grid_functions.py:568) -/
abbrev Vec := Int × Int

/-- `entry_tuples_list`, grid_functions.py:568 -/
def entryTuples : List Vec := [(0, 1), (0, -1), (1, 0), (-1, 0)]

/-- `exit_tuples_list`, grid_functions.py:569-572 -/
def exitTuples : List (List Vec) :=
  [[(-1, 0), (0, 1), (1, 0)],
   [(-1, 0), (0, -1), (1, 0)],
   [(0, -1), (1, 0), (0, 1)],
   [(0, -1), (-1, 0), (0, 1)]]

/-- `result_arrays_list`, grid_functions.py:573-584, each array as a list of rows -/
def resultArrays : List (List (List (List Bool))) :=
  [[[[false, true], [true, true]],
    [[false, false], [true, true]],
    [[false, false], [true, false]]],
   [[[false, true], [false, false]],
    [[true, true], [false, false]],
    [[true, true], [true, false]]],
   [[[true, false], [false, false]],
    [[true, false], [true, false]],
    [[true, false], [true, true]]],
   [[[true, true], [false, true]],
    [[false, true], [false, true]],
    [[false, false], [false, true]]]]

/-- `list.index`; for `sidesFor` (grid_functions.py:586-596) -/
def indexOf? (v : Vec) : List Vec → Option Nat
  | [] => none
  | x :: xs => if x = v then some 0 else (indexOf? v xs).map (· + 1)

/-- for `translateShift` (grid_functions.py:406-429) -/
def sub (a b : Vec) : Vec := (a.1 - b.1, a.2 - b.2)

/-- grid_functions.py:586-596 -/
def sidesFor (entry exit : Vec) : Res (List (List Bool)) :=
  match indexOf? entry entryTuples with
  | none => .error .custom
  | some n => match indexOf? exit (exitTuples.getD n []) with
    | none => .error .custom
    | some r => match (resultArrays.getD n [])[r]? with
      | none => .error .index
      | some a => .ok a

/-- grid_functions.py:553-597 `left_right_foursome` -/
def leftRightFoursome (l : List Vec) (p : Nat) : Res (List (List Bool)) :=
  match l[p]? with
  | none => .error .assertion
  | some here =>
    let previous := if 0 < p then l[p - 1]? else none
    let next := l[p + 1]?
    match previous, next with
    | none, none => .error .assertion
    | none, some n => sidesFor (sub n here) (sub n here)
    | some q, none => sidesFor (sub here q) (sub here q)
    | some q, some n => sidesFor (sub here q) (sub n here)

/-! ## Filling in inactive cells -/

/-- the arrays restricted to one column of cells; for `cleanUp` (grid_functions.py:151-165) -/
structure Col (K : Type) where
  depth : Nat → K
  thick : Nat → K
  x : Nat → K
  y : Nat → K

variable {K : Type} [Field K] [LinearOrder K]

/-- assignment to one element; for `cleanUp` (grid_functions.py:151-165) -/
def upd (f : Nat → K) (k : Nat) (v : K) : Nat → K := fun k' => if k' = k then v else f k'

/-- for `cleanUp` (grid_functions.py:151-165) -/
structure Settings (K : Type) where
  nk : Nat
  /-- `k_dir_sign` -/
  sign : K
  depthTol : K
  xyTol : K
  overlapTol : K
  snap : Bool
  nudge : Bool

/-- grid_functions.py:151-165 `__clean_up_tiny_values`; `n` bounds the steps (nk - k suffices) -/
def cleanUp (s : Settings K) : Nat → Nat → Col K → Nat × Col K
  | 0, k, c => (k, c)
  | n + 1, k, c =>
    if k < s.nk ∧ |c.depth k| ≤ s.depthTol then
      cleanUp s n (k + 1)
        { depth := upd c.depth k 0, thick := upd c.thick k 0,
          x := if |c.x k| ≤ s.xyTol then upd c.x k 0 else c.x,
          y := if |c.y k| ≤ s.xyTol then upd c.y k 0 else c.y }
    else (k, c)

/-- grid_functions.py:77-78: skip active layers -/
def skipActive (s : Settings K) : Nat → Nat → Col K → Nat
  | 0, k, _ => k
  | n + 1, k, c => if k < s.nk ∧ |c.depth k| > s.depthTol then skipActive s n (k + 1) c else k

/-- grid_functions.py:168-190 `__snap_to_top_and_base`; the call at lines 67-75 leaves the last argument False and changes
nothing, the call at lines 91-100 passes True.  With k_top = 0 the subscripts at lines 181-184 would be -1, but no element is
assigned in that case. -/
def snapTop (s : Settings K) (kTop : Nat) (last : Bool) (c : Col K) : Col K :=
  if last && s.snap then
    let k := kTop - 1
    let d := c.depth k - s.sign * c.thick k / 2
    { c with depth := fun k' => if k' < k then d else c.depth k',
             x := fun k' => if k' < k then c.x k else c.x k',
             y := fun k' => if k' < k then c.y k else c.y k' }
  else c

/-- grid_functions.py:131-135: fill `count` cells from `kTop` -/
def fillVoid (s : Settings K) (kTop count : Nat) (top thick x0 dx y0 dy : K) (c : Col K) : Col K :=
  { depth := fun k => if kTop ≤ k ∧ k < kTop + count then top + (1 / 2 + ((k - kTop : Nat) : K)) * thick * s.sign else c.depth k
    thick := fun k => if kTop ≤ k ∧ k < kTop + count then thick else c.thick k
    x := fun k => if kTop ≤ k ∧ k < kTop + count then x0 + (1 / 2 + ((k - kTop : Nat) : K)) * dx / count else c.x k
    y := fun k => if kTop ≤ k ∧ k < kTop + count then y0 + (1 / 2 + ((k - kTop : Nat) : K)) * dy / count else c.y k }

/-- loop at grid_functions.py:76-136; the first argument bounds the number of iterations (nk + 1 suffices).  The call of
`__nudge_overlapping_cells_if_requested` at lines 114-123 lacks the required argument `depth`, whence TypeError. -/
def infillLoop (s : Settings K) : Nat → Nat → Col K → Res (Col K)
  | 0, _, c => .ok c
  | fuel + 1, kTop, c =>
    let kTop := skipActive s s.nk kTop c
    let (kBase, c) := cleanUp s s.nk (kTop + 1) c
    if kBase ≥ s.nk then .ok (snapTop s kTop true c)
    else
      let count := kBase - kTop
      let top := c.depth (kTop - 1) + c.thick (kTop - 1) / 2 * s.sign
      let bottom := c.depth kBase - c.thick kBase / 2 * s.sign
      let interval := s.sign * (bottom - top)
      if interval < 0 then
        if -interval < s.overlapTol then .error .type
        else .ok c
      else
        infillLoop s fuel kBase
          (fillVoid s kTop count top (interval / count) (c.x (kTop - 1)) (c.x kBase - c.x (kTop - 1))
            (c.y (kTop - 1)) (c.y kBase - c.y (kTop - 1)) c)

/-- grid_functions.py:50-136 `infill_block_geometry` for one column; the columns are treated independently -/
def infillColumn (s : Settings K) (c : Col K) : Res (Col K) :=
  let (kTop, c) := cleanUp s s.nk 0 c
  if kTop ≥ s.nk then .ok c
  else infillLoop s (s.nk + 1) kTop (snapTop s kTop false c)

end Verif.GridFns
