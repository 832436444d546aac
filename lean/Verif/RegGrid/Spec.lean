import Verif.RegGrid.Model

/-!
# Specification: the geometry of a regular grid
-/

namespace Verif.RegGrid
open Verif.Py

variable {K : Type} [Field K] [LinearOrder K]

/-- the node reached from the origin by k, j and i steps -/
def node (g : RegGrid K) (p : Cell) : Vec K := fun a => g.origin a + (p.1 : K) * g.d 0 a + (p.2.1 : K) * g.d 1 a + (p.2.2 : K) * g.d 2 a

/-- a corner of a cell is the node at that end of the cell along each axis -/
def corner (g : RegGrid K) (c : Cell) (p : Corner) : Vec K := node g (c.1 + p.1.val, c.2.1 + p.2.1.val, c.2.2 + p.2.2.val)

/-- the mean of the eight corners of a cell -/
def centre (g : RegGrid K) (c : Cell) : Vec K := fun a =>
  ((corner g c (0, 0, 0) a + corner g c (0, 0, 1) a + corner g c (0, 1, 0) a + corner g c (0, 1, 1) a) +
   (corner g c (1, 0, 0) a + corner g c (1, 0, 1) a + corner g c (1, 1, 0) a + corner g c (1, 1, 1) a)) / 8

/-- a grid has cells, and is held to be aligned only if steps along I, J, K change only x, y, z -/
structure Fit (g : RegGrid K) : Prop where
  nk : 0 < g.nk
  nj : 0 < g.nj
  ni : 0 < g.ni
  axes : g.aligned = true → g.d 0 0 = 0 ∧ g.d 0 1 = 0 ∧ g.d 1 0 = 0 ∧ g.d 1 2 = 0 ∧ g.d 2 1 = 0 ∧ g.d 2 2 = 0

/-- what a call is to return, whatever calls came before -/
def answer (g : RegGrid K) : Call → Out K
  | .pointRaw none true => .nothing
  | .pointRaw none false => .failed
  | .pointRaw (some p) _ => .point (node g p)
  | .cornerPoints none _ _ => .allCorners (corner g)
  | .cornerPoints (some c) _ _ => .corners (corner g c)
  | .centrePoint none _ true => .points (centre g)
  | .centrePoint none _ false => .points fun c => centre g c - g.origin
  | .centrePoint (some c) _ true => .point (centre g c)
  | .centrePoint (some c) _ false => .point (centre g c - g.origin)

/-- the node is one of the grid -/
def InGrid (g : RegGrid K) (p : Cell) : Prop := p.1 ≤ g.nk ∧ p.2.1 ≤ g.nj ∧ p.2.2 ≤ g.ni

/-- the box is the least one which holds all the nodes of the grid: each side is touched -/
def IsBox (g : RegGrid K) (b : Vec K × Vec K) : Prop :=
  ∀ a, (∀ p, InGrid g p → b.1 a ≤ node g p a ∧ node g p a ≤ b.2 a) ∧ (∃ p, InGrid g p ∧ node g p a = b.1 a) ∧ (∃ p, InGrid g p ∧ node g p a = b.2 a)

/-- x lies between s and t, in whichever order these are, the end t left out -/
def Between (s t x : K) : Prop := (s ≤ x ∧ x < t) ∨ (t < x ∧ x ≤ s)

/-- in plan, the point lies in the column (the sides of an aligned grid) -/
def InColumn (g : RegGrid K) (j i : Nat) (x y : K) : Prop :=
  Between (node g (0, j, i) 0) (node g (0, j, i + 1) 0) x ∧ Between (node g (0, j, i) 1) (node g (0, j + 1, i) 1) y

/-- where the node is in the coordinates of the parent of the crs, if the grid's numbers were meant in `c` -/
noncomputable def place (c : Verif.Crs.Crs) (g : RegGrid ℝ) (p : Cell) (gz : Bool) (gaxis : Verif.Crs.Axis) : Verif.Crs.Pt :=
  c.localToGlobal (toPt (node g p)) gz gaxis

end Verif.RegGrid
