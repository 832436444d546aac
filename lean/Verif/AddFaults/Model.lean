import Verif.Pillars.Model
import Verif.GridFns.Model
import Mathlib.Algebra.Module.Rat
import Mathlib.Data.List.Sort
import Mathlib.Data.List.Dedup

/-! # Model of `add_faults`

`resqpy/derived_model/_add_faults.py`, the part which splits and moves pillars.  Points are elements of any vector space over the
rationals.  Undefined points (nan) are left out, as are the lines from which the lists of pillars may come, face sets, properties
and storage. -/

namespace Verif.AddFaults
open Verif.Py Verif.Pillars

variable {V : Type} [AddCommGroup V] [Module ℚ V]

/-- What is used of a grid: `nk_plus_k_gaps`, the pillar tables, the points by raw K index and pillar, and the number of pillars
there are in the array of points.  For a grid without split pillars the array has an axis for each of J and I; pillars are numbered in
its natural order.; for `pillarVector` (_add_faults.py:227-249) -/
structure FGrid (V : Type) where
  nkg : Nat
  tab : Pillars.Grid
  pts : Nat → Nat → V
  count : Nat

/-- _add_faults.py:227-249 `_pillar_vector` where all points are defined: `unit` is `vec.unit_vector` and `straight` the vector
given at 236-246, up or down.  `k_bot` is `nk_plus_k_gaps - 1`, which is not the last index of the array. -/
def pillarVector (unit : V → V) (straight : V) (g : FGrid V) (p : Nat) : V :=
  if g.nkg - 1 = 0 then straight else unit (g.pts (g.nkg - 1) p - g.pts 0 p)

/-- loop at _add_faults.py:317-323, without the removal: `n` is the number of indices left to be tried, from `s` -/
def findFrom (cols : List Nat) (c : Nat) : Nat → Nat → Res (Option Nat)
  | 0, _ => .ok none
  | n + 1, s => match at? cols s with
    | .error e => .error e
    | .ok x => if x = c then .ok (some s) else findFrom cols c n (s + 1)

/-- _add_faults.py:307-327: a column is taken from those of an extra pillar; `cl` is the local variable of that name.
The range tried ends at the start plus the cumulative length, as in the code. -/
def removeCol (tab : Pillars.Grid) (primary extra c cl : Nat) : Res (Pillars.Grid × Nat) :=
  match at? tab.spi extra with
  | .error e => .error e
  | .ok p =>
    if p ≠ primary then .error .assertion
    else match segStart tab extra with
      | .error e => .error e
      | .ok start => match at? tab.cl extra with
        | .error e => .error e
        | .ok len => match findFrom tab.cols c len start with
          | .error e => .error e
          | .ok none => .error .assertion
          | .ok (some ix) =>
            let tab' := { tab with cols := tab.cols.take ix ++ tab.cols.drop (ix + 1),
                                   cl := tab.cl.take extra ++ (tab.cl.drop extra).map (· - 1) }
            match at? tab'.cl extra with
            | .error e => .error e
            | .ok x => if 0 < x then .ok (tab', cl - 1) else .error .assertion

/-- the variables of `_processs_foursome`; for `cornerStep` (_add_faults.py:289-347) -/
structure PState (V : Type) where
  g : FGrid V
  cl : Nat
  lr : Option Bool
  made : Bool
  orig : Nat → V

/-- one pillar, as `_processs_foursome` is given it: its indices, the pillars used by the columns around it, which columns are on
the right and the two vectors; for `cornerStep` (_add_faults.py:289-347) -/
structure Visit (V : Type) where
  pj : Nat
  pi : Nat
  primary : Nat
  four : Foursome
  right : Nat → Nat → Bool
  throwR : V
  throwL : V

/-- `throw_right_vector if ... else throw_left_vector`; for `cornerStep` (_add_faults.py:289-347) -/
def Visit.throw (v : Visit V) (b : Bool) : V := if b then v.throwR else v.throwL

/-- _add_faults.py:289-347: the body of the loops over jp and ip.  `grid.points_cached[:, -1, :]` is the pillar just added. -/
def cornerStep (nPrimaries : Nat) (v : Visit V) (existP : Nat) (s : PState V) (c : Nat × Nat) : Res (PState V) :=
  let jp := c.1
  let ip := c.2
  if v.pj = 0 ∧ jp = 0 ∨ v.pj = s.g.tab.nj ∧ jp = 1 then .ok s
  else if v.pi = 0 ∧ ip = 0 ∨ v.pi = s.g.tab.ni ∧ ip = 1 then .ok s
  else if v.four jp ip ≠ existP then .ok s
  else match s.lr with
    | none => .ok { s with orig := fun k => s.g.pts k existP, lr := some (v.right jp ip),
                           g := { s.g with pts := fun k q =>
                             if q = existP then s.g.pts k q + v.throw (v.right jp ip) else s.g.pts k q } }
    | some b =>
      if v.right jp ip = b then .ok s
      else
        let col := (v.pj + jp - 1) * s.g.tab.ni + (v.pi + ip) - 1
        match (if existP ≠ v.primary then removeCol s.g.tab v.primary (existP - nPrimaries) col s.cl else .ok (s.g.tab, s.cl)) with
        | .error e => .error e
        | .ok (tab, cl) =>
          if s.made then
            .ok { s with g := { s.g with tab := { tab with cols := tab.cols ++ [col], cl := tab.cl.dropLast ++ [cl + 1] } },
                         cl := cl + 1 }
          else
            .ok { s with g := { s.g with tab := { tab with spi := tab.spi ++ [v.primary], cols := tab.cols ++ [col],
                                                           cl := tab.cl ++ [cl + 1] },
                                         pts := fun k q => if q = s.g.count then s.orig k + v.throw (v.right jp ip) else s.g.pts k q,
                                         count := s.g.count + 1 },
                         cl := cl + 1, made := true }

/-- _add_faults.py:289-292 -/
def corners : List (Nat × Nat) := [(0, 0), (0, 1), (1, 0), (1, 1)]

/-- for `existLoop` (_add_faults.py:286) -/
def cornerLoop (nPrimaries : Nat) (v : Visit V) (existP : Nat) : List (Nat × Nat) → PState V → Res (PState V)
  | [], s => .ok s
  | c :: cs, s => match cornerStep nPrimaries v existP s c with
    | .error e => .error e
    | .ok s => cornerLoop nPrimaries v existP cs s

/-- loop at _add_faults.py:286 over the pillars in use -/
def existLoop (nPrimaries : Nat) (v : Visit V) : List Nat → PState V → Res (PState V)
  | [], s => .ok s
  | e :: es, s => match cornerLoop nPrimaries v e corners { s with lr := none, made := false } with
    | .error e => .error e
    | .ok s => existLoop nPrimaries v es s

/-- `np.unique(existing_foursome)`: in increasing order; for `visitPillar` (_add_faults.py:205-224) -/
def uniques (f : Foursome) : List Nat := (corners.map fun c => f c.1 c.2).dedup.insertionSort (· ≤ ·)

/-- loop body at _add_faults.py:205-224, `n` being the length of the list.  The points of a pillar which is not there
cannot be had (229); `p_vector is None` does not occur where all points are defined. -/
def visitPillar (unit : V → V) (straight : V) (left right : ℚ) (l : List (Nat × Nat)) (s : PState V) (x : Nat) : Res (PState V) :=
  match l[x]? with
  | none => .error .index
  | some (pj, pi) =>
    if (x = 0 ∨ x + 1 = l.length) ∧ ¬ ((pj = 0 ∨ pj = s.g.tab.nj) ∨ (pi = 0 ∨ pi = s.g.tab.ni)) then .ok s
    else
      let primary := pj * (s.g.tab.ni + 1) + pi
      if s.g.count ≤ primary then .error .index
      else match pillarFoursome s.g.tab pj pi false with
        | .error e => .error e
        | .ok none => .error .type
        | .ok (some four) =>
          match GridFns.leftRightFoursome (l.map fun p => ((p.1 : Int), (p.2 : Int))) x with
          | .error e => .error e
          | .ok r =>
            let u := pillarVector unit straight s.g primary
            let v : Visit V := { pj := pj, pi := pi, primary := primary, four := four,
                                 right := fun jp ip => (r.getD jp []).getD ip false, throwR := right • u, throwL := left • u }
            existLoop ((s.g.tab.nj + 1) * (s.g.tab.ni + 1)) v (uniques four) s

/-- loop at _add_faults.py:205-224 -/
def visitLoop (unit : V → V) (straight : V) (left right : ℚ) (l : List (Nat × Nat)) : List Nat → PState V → Res (PState V)
  | [], s => .ok s
  | x :: xs, s => match visitPillar unit straight left right l s x with
    | .error e => .error e
    | .ok s => visitLoop unit straight left right l xs s

/-- _add_faults.py:169-224 `_fault_from_pillar_list`: `sameUnits` for the assertion at 189.  The array of original points (203) is
assigned before it is used. -/
def faultFromPillarList (unit : V → V) (straight : V) (sameUnits : Bool) (g : FGrid V) (l : List (Nat × Nat)) (left right : ℚ) :
    Res (FGrid V) :=
  if l.length < 2 then .ok g
  else if !sameUnits then .error .assertion
  else
    let g := if g.tab.hasSplit then g else { g with tab := ⟨g.tab.nj, g.tab.ni, true, [], [], []⟩ }
    let cl := g.tab.cl.getLastD 0
    match visitLoop unit straight left right l (List.range l.length) ⟨g, cl, none, false, fun k => g.pts k 0⟩ with
    | .error e => .error e
    | .ok s => .ok s.g

/-- a named fault: its list of pillars and the pair of throws given for the name, if any; for `addFaults` (_add_faults.py:351-362) -/
structure FaultDef where
  pillars : List (Nat × Nat)
  throws : Option (ℚ × ℚ)

/-- _add_faults.py:351-362 `_process_full_pillar_list_dict`, a dictionary being the list of its entries -/
def addFaults (unit : V → V) (straight : V) (sameUnits : Bool) : List FaultDef → FGrid V → Res (FGrid V)
  | [], g => .ok g
  | d :: ds, g =>
    let t := d.throws.getD (1 / 2, -(1 / 2))
    match faultFromPillarList unit straight sameUnits g d.pillars t.1 t.2 with
    | .error e => .error e
    | .ok g => addFaults unit straight sameUnits ds g

end Verif.AddFaults
