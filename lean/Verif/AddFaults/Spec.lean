import Verif.AddFaults.Model
import Verif.Pillars.Spec
import Verif.GridFns.Spec

/-! # What is asked of `add_faults` -/

namespace Verif.AddFaults
open Verif.Py Verif.Pillars

variable {V : Type} [AddCommGroup V] [Module ℚ V]

/-- The pillar tables say, for each extra pillar, which natural pillar it splits from and for which columns: `ls` has a list of
columns for each extra pillar, the flat list is made of them one after the other and the cumulative lengths are theirs.  Each column
is one of the grid and has the natural pillar at one of its corners. -/
structure Tabulates (t : Pillars.Grid) (ls : List (List Nat)) : Prop where
  split : t.hasSplit = true
  size : t.spi.length = ls.length
  flat : t.cols = ls.flatten
  cumulative : t.cl = (List.range ls.length).map fun n => ((ls.take (n + 1)).map List.length).sum
  near : ∀ (n P : Nat) (cs : List Nat) (c : Nat), t.spi[n]? = some P → ls[n]? = some cs → c ∈ cs →
    ∃ j i jp ip, j < t.nj ∧ i < t.ni ∧ jp ≤ 1 ∧ ip ≤ 1 ∧ c = j * t.ni + i ∧ P = naturalPillar t j i jp ip

/-- A grid as the functions expect it: with columns; the points are there for each natural pillar and each extra one; the tables of
extra pillars are in order. -/
structure WellFormed (g : FGrid V) : Prop where
  nj : 0 < g.tab.nj
  ni : 0 < g.tab.ni
  plain : g.tab.hasSplit = false → g.count = (g.tab.nj + 1) * (g.tab.ni + 1)
  faulted : g.tab.hasSplit = true → g.count = (g.tab.nj + 1) * (g.tab.ni + 1) + g.tab.spi.length ∧ ∃ ls, Tabulates g.tab ls

/-- A list of pillars which makes a path: two or more pillars of the grid, each one step away from the one before; it does not turn
back on itself. -/
structure IsPath (t : Pillars.Grid) (l : List (Nat × Nat)) : Prop where
  two : 2 ≤ l.length
  within : ∀ p ∈ l, p.1 ≤ t.nj ∧ p.2 ≤ t.ni
  steps : ∀ (x : Nat) (p q : Nat × Nat), l[x]? = some p → l[x + 1]? = some q → GridFns.IsStep ((q.1 : Int) - p.1, (q.2 : Int) - p.2)
  onward : ∀ (x : Nat) (p q : Nat × Nat), l[x]? = some p → l[x + 2]? = some q → p ≠ q

/-- the step from one pillar of the list to the next -/
def stepAt (l : List (Nat × Nat)) (x : Nat) : GridFns.Vec :=
  (((l.getD (x + 1) (0, 0)).1 : Int) - (l.getD x (0, 0)).1, ((l.getD (x + 1) (0, 0)).2 : Int) - (l.getD x (0, 0)).2)

/-- direction in which the path arrives at its pillar number `x`; for the first pillar, that in which it leaves -/
def arriving (l : List (Nat × Nat)) (x : Nat) : GridFns.Vec := if x = 0 then stepAt l 0 else stepAt l (x - 1)

/-- direction in which the path leaves its pillar number `x`; for the last pillar, that in which it arrives -/
def leaving (l : List (Nat × Nat)) (x : Nat) : GridFns.Vec := if x + 1 = l.length then stepAt l (x - 1) else stepAt l x

/-- A column which has pillar number `x` of the path at its corner (jp, ip) is on the right of the path: it is seen from the pillar
in the direction away from that corner. -/
def ColumnOnRight (l : List (Nat × Nat)) (x jp ip : Nat) : Prop :=
  GridFns.OnRight (arriving l x) (leaving l x) (GridFns.colDir (1 - jp) (1 - ip))

/-- one of the outer pillars of the grid -/
def Outer (t : Pillars.Grid) (p : Nat × Nat) : Prop := p.1 = 0 ∨ p.1 = t.nj ∨ p.2 = 0 ∨ p.2 = t.ni

/-- the first or last pillar of a path which is not an outer pillar: the tip of the fault, where there is no throw -/
def Tip (t : Pillars.Grid) (l : List (Nat × Nat)) (x : Nat) (p : Nat × Nat) : Prop :=
  (x = 0 ∨ x + 1 = l.length) ∧ ¬ Outer t p

open Classical in
/-- By how much the corner (jp, ip) of a column (j, i) is moved for pillar number `x` of a path, in units of the direction of the
pillar: not at all unless that is the pillar at the corner. -/
noncomputable def moveAt (t : Pillars.Grid) (l : List (Nat × Nat)) (left right : ℚ) (j i jp ip x : Nat) : ℚ :=
  if l[x]? = some (j + jp, i + ip) ∧ ¬ Tip t l x (j + jp, i + ip) then
    if ColumnOnRight l x jp ip then right else left
  else 0

/-- by how much the corner is moved for the whole path -/
noncomputable def move (t : Pillars.Grid) (l : List (Nat × Nat)) (left right : ℚ) (j i jp ip : Nat) : ℚ :=
  ((List.range l.length).map (moveAt t l left right j i jp ip)).sum

/-- each extra pillar is listed with at least one column -/
def ExtrasUsed (t : Pillars.Grid) : Prop := ∀ n, n < t.spi.length → ∃ cs, IsSegment t n cs ∧ cs ≠ []

/-- Direction in which the corners at a natural pillar are moved, increasing K: that from the top point of the pillar to the last
but one.  With a single layer there is none; `straight` is taken. -/
def direction (unit : V → V) (straight : V) (g : FGrid V) (P : Nat) : V :=
  if g.nkg ≤ 1 then straight else unit (g.pts (g.nkg - 1) P - g.pts 0 P)

end Verif.AddFaults
