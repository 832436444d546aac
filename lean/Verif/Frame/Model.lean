import Mathlib.Algebra.Order.Field.Basic
import Mathlib.Algebra.BigOperators.Group.List.Basic
import Verif.Py.Basic

/-!
# Wellbore frames and blocked wells

Model of `resqpy/well/_wellbore_frame.py` (`interval_for_md`) and `resqpy/well/blocked_well_frame.py`: the intervals of a wellbore frame
mapped onto the cells of a blocked well, and the properties derived from it.

Numbers are those of any ordered field (exact arithmetic in place of floating point).  A frame has at least two nodes, as its constructor
asks for (`resqpy/well/_wellbore_frame.py:102-106`).  A missing value (NaN) is `none`.
-/

namespace Verif.Frame

open Verif.Py

variable {K : Type} [Field K] [LinearOrder K]

/-- `node_mds[i]` for a number in range, as in resqpy/well/_wellbore_frame.py:177-181 interval_for_md -/
def nd (nodes : List K) (i : Nat) : K := nodes.getD i 0

/-- resqpy/well/_wellbore_frame.py:163-182 interval_for_md -/
def intervalForMd (nodes : List K) (md : K) : Int × K :=
  if md < nd nodes 0 then (-1, 0)
  else
    match (List.range (nodes.length - 1)).find? fun i => md ≤ nd nodes (i + 1) with
    | some i => ((i : Int), (md - nd nodes i) / (nd nodes (i + 1) - nd nodes i))
    | none => (-1, 1)

/-- What one interval of the frame contributes to a cell: the interval, the fraction of the interval in the cell, and the fraction of the
cell in the interval.  resqpy/well/blocked_well_frame.py:23-25 blocked_well_frame_contributions_list -/
abbrev Contrib (K : Type) := Nat × K × K

/-- resqpy/well/blocked_well_frame.py:49-68 blocked_well_frame_contributions_list: the entry is in interval `ei` at fraction `ef`, the exit
in `xi` at `xf` (tolerance of the check at line 56 left out, as arithmetic is exact). -/
def contribBetween (nodes : List K) (entry exit : K) (ei : Nat) (ef : K) (xi : Nat) (xf : K) : Res (List (Contrib K)) :=
  if xi < ei then .error .assertion
  else if xi = ei then
    if xf < ef then .error .assertion
    else if xf = ef then .ok []
    else
      let fr := (min exit (nd nodes (xi + 1)) - max entry (nd nodes ei)) / (exit - entry)
      if 0 ≤ fr ∧ fr ≤ 1 then .ok [(ei, xf - ef, fr)] else .error .assertion
  else
    let fr := (nd nodes (ei + 1) - max entry (nd nodes ei)) / (exit - entry)
    let fr' := (min exit (nd nodes (xi + 1)) - nd nodes xi) / (exit - entry)
    if ¬ (0 ≤ fr ∧ fr ≤ 1) then .error .assertion
    else if ¬ (0 ≤ fr' ∧ fr' ≤ 1) then .error .assertion
    else
      .ok ((ei, 1 - ef, fr) ::
        ((List.range (xi - (ei + 1))).map fun k => (ei + 1 + k, 1, (nd nodes (ei + 1 + k + 1) - nd nodes (ei + 1 + k)) / (exit - entry))) ++
        [(xi, xf, fr')])

/-- resqpy/well/blocked_well_frame.py:32-68 blocked_well_frame_contributions_list: one cell. -/
def cellContrib (nodes : List K) (entry exit : K) : Res (List (Contrib K)) :=
  let e := intervalForMd nodes entry
  let x := intervalForMd nodes exit
  if (x.1 = -1 ∧ x.2 < 1 / 2) ∨ (e.1 = -1 ∧ 1 / 2 < e.2) then .ok []
  else if e.1 = -1 ∧ ¬ e.2 < 1 / 2 then .error .assertion
  else if x.1 = -1 ∧ ¬ 1 / 2 < x.2 then .error .assertion
  else
    contribBetween nodes entry exit (if e.1 = -1 then 0 else e.1.toNat) (if e.1 = -1 then 0 else e.2)
      (if x.1 = -1 then nodes.length - 2 else x.1.toNat) (if x.1 = -1 then 1 else x.2)

/-- resqpy/well/blocked_well_frame.py:28-70 blocked_well_frame_contributions_list: one entry for each interval of the blocked well which is
in a cell (its grid index is not negative). -/
def contributions (nodes : List K) : List K → List Int → Res (List (List (Contrib K)))
  | a :: b :: mds, g :: gi =>
    if g < 0 then contributions nodes (b :: mds) gi
    else
      match cellContrib nodes a b with
      | .error e => .error e
      | .ok c =>
        match contributions nodes (b :: mds) gi with
        | .error e => .error e
        | .ok cs => .ok (c :: cs)
  | _, _ => .ok []

/-- What is gathered for a cell from the active intervals.; for `activeStep` (blocked_well_frame.py:204-210) -/
structure Acc (K : Type) where
  active : Bool
  pperf : K
  maxFr : K
  maxInterval : Option Nat

/-- resqpy/well/blocked_well_frame.py:204-210 add_blocked_well_properties_from_wellbore_frame -/
def activeStep (act : Nat → Bool) (s : Acc K) (c : Contrib K) : Acc K :=
  if act c.1 then
    ⟨true, s.pperf + c.2.2, if s.maxFr < c.2.2 then c.2.2 else s.maxFr, if s.maxFr < c.2.2 then some c.1 else s.maxInterval⟩
  else s

/-- resqpy/well/blocked_well_frame.py:199-215 add_blocked_well_properties_from_wellbore_frame: the active flag, perforated fraction,
dominant interval and length of a cell. -/
def cellActive (act : Nat → Bool) (entry exit : K) (l : List (Contrib K)) : Bool × K × Int × K :=
  let s := l.foldl (activeStep act) ⟨false, 0, 0, none⟩
  let p := if 1 < s.pperf then 1 else s.pperf
  (s.active, p, (match s.maxInterval with | some i => (i : Int) | none => -1), p * (exit - entry))

/-- `np.nanmax` of values of which at least one is there; for `cellRadius` (blocked_well_frame.py:262-273) -/
def nanMax : List (Option K) → Option K
  | [] => none
  | none :: l => nanMax l
  | some x :: l => match nanMax l with | none => some x | some y => some (max x y)

/-- resqpy/well/blocked_well_frame.py:262-273 add_blocked_well_properties_from_wellbore_frame: the radius of the well in a cell. -/
def cellRadius (r : Nat → Option K) (l : List (Contrib K)) : Option K :=
  match l.head?, l.getLast? with
  | some a, some b => nanMax ((List.range (b.1 + 1 - a.1)).map fun k => r (a.1 + k))
  | _, _ => none

/-- resqpy/well/blocked_well_frame.py:291-297 add_blocked_well_properties_from_wellbore_frame: whether the connection of a cell is open. -/
def cellOpen (isOpen : Nat → Bool) (l : List (Contrib K)) : Bool := l.any fun c => isOpen c.1

/-- resqpy/well/blocked_well_frame.py:327-329 add_blocked_well_properties_from_wellbore_frame -/
def khStep (kh : Nat → Option K) (s : K) (c : Contrib K) : K :=
  match kh c.1 with
  | some v => s + v * c.2.1
  | none => s

/-- resqpy/well/blocked_well_frame.py:324-329 add_blocked_well_properties_from_wellbore_frame: the permeability thickness of a cell. -/
def cellKh (kh : Nat → Option K) (l : List (Contrib K)) : K := l.foldl (khStep kh) 0

/-- resqpy/well/blocked_well_frame.py:358-364 add_blocked_well_properties_from_wellbore_frame: the sum, if there is one yet, and the sum
of the fractions. -/
def skinStep (skin : Nat → Option K) (s : Option K × K) (c : Contrib K) : Option K × K :=
  match skin c.1 with
  | none => s
  | some v => (some (s.1.getD 0 + v * c.2.2), s.2 + c.2.2)

/-- resqpy/well/blocked_well_frame.py:354-366 add_blocked_well_properties_from_wellbore_frame: the skin of a cell. -/
def cellSkin (skin : Nat → Option K) (l : List (Contrib K)) : Option K :=
  let s := l.foldl (skinStep skin) (none, 0)
  if 0 < s.2 then s.1.map fun x => x / s.2 else s.1

end Verif.Frame
