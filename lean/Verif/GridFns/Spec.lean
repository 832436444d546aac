import Verif.GridFns.Model

/-! # What is asked of the grid functions -/

namespace Verif.GridFns
open Verif.Py

/-! ## Sides of a line -/

/-- positive when `b` is to the right of direction `a`, the i axis pointing to the right and the j axis downwards -/
def cross (a b : Vec) : Int := a.2 * b.1 - a.1 * b.2

/-- one step along an axis -/
def IsStep (a : Vec) : Prop := a = (0, 1) ∨ a = (0, -1) ∨ a = (1, 0) ∨ a = (-1, 0)

/-- Which points are to the right of a path that arrives in direction `a` and leaves in direction `b`: when the path turns to
the right, those to the right of both its arms; otherwise those to the right of one of them. -/
def OnRight (a b q : Vec) : Prop :=
  if 0 < cross a b then 0 < cross a q ∧ 0 < cross b q else 0 < cross a q ∨ 0 < cross b q

/-- direction from a pillar to the centre of one of the four columns around it, the columns being numbered as in a
foursome, doubled -/
def colDir (jp ip : Nat) : Vec := (2 * (jp : Int) - 1, 2 * (ip : Int) - 1)

/-- the answer given for a column -/
def marked (r : List (List Bool)) (jp ip : Nat) : Bool := (r.getD jp []).getD ip false

/-! ## Infill -/

variable {K : Type} [Field K] [LinearOrder K]

/-- a cell with depth other than zero -/
def Active (s : Settings K) (c : Col K) (k : Nat) : Prop := k < s.nk ∧ s.depthTol < |c.depth k|

/-- `b` is the next active cell after `a` -/
def Consecutive (s : Settings K) (c : Col K) (a b : Nat) : Prop :=
  Active s c a ∧ Active s c b ∧ a < b ∧ ∀ k, a < k → k < b → ¬ Active s c k

/-- depth of the face with lower k -/
def topOf (s : Settings K) (c : Col K) (k : Nat) : K := c.depth k - s.sign * c.thick k / 2

/-- depth of the face with higher k -/
def baseOf (s : Settings K) (c : Col K) (k : Nat) : K := c.depth k + s.sign * c.thick k / 2

/-- the arrays agree for a cell -/
def SameAt (c c' : Col K) (k : Nat) : Prop :=
  c'.depth k = c.depth k ∧ c'.thick k = c.thick k ∧ c'.x k = c.x k ∧ c'.y k = c.y k

/-- The cells strictly between `a` and `b` fill the space between them: each cell begins where the one before ends, they are
equally thick and not inside out, and their centres are evenly spaced, half a space from those of `a` and `b`. -/
structure Filled (s : Settings K) (c' : Col K) (a b : Nat) : Prop where
  contiguous : ∀ k, a ≤ k → k < b → baseOf s c' k = topOf s c' (k + 1)
  equal : ∀ k l, a < k → k < b → a < l → l < b → c'.thick k = c'.thick l
  nonneg : ∀ k, a < k → k < b → 0 ≤ c'.thick k
  x_even : ∀ k, a < k → k < b → ((b - a - 1 : Nat) : K) * (c'.x k - c'.x a) = (((k - a : Nat) : K) - 1 / 2) * (c'.x b - c'.x a)
  y_even : ∀ k, a < k → k < b → ((b - a - 1 : Nat) : K) * (c'.y k - c'.y a) = (((k - a : Nat) : K) - 1 / 2) * (c'.y b - c'.y a)

/-- cells next to a void do not overlap one another -/
def NoOverlap (s : Settings K) (c : Col K) : Prop :=
  ∀ a b, Consecutive s c a b → a + 1 < b → 0 ≤ s.sign * (topOf s c b - baseOf s c a)

end Verif.GridFns
