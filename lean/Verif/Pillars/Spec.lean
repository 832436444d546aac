import Verif.Pillars.Model
import Mathlib.Order.Bounds.Basic

/-! # What is asked of the pillar functions

Nothing here refers to how the functions work: only to the tables of a grid, the answers given by the functions and
distances in a rectangle of columns. -/

namespace Verif.Pillars
open Verif.Py

/-- the natural pillar of a corner of a column: pillars are numbered along the rows of an (nj + 1) × (ni + 1) array -/
def naturalPillar (g : Grid) (j i jp ip : Nat) : Nat := (j + jp) * (g.ni + 1) + (i + ip)

/-- `cs` are the columns listed for extra pillar number `n`: the piece of the flat list of columns from the cumulative length
before (0 for the first) up to its own cumulative length -/
def IsSegment (g : Grid) (n : Nat) (cs : List Nat) : Prop :=
  ∃ a b, (n = 0 ∧ a = 0 ∨ ∃ m, n = m + 1 ∧ g.cl[m]? = some a) ∧ g.cl[n]? = some b ∧ cs.length = b - a ∧
    ∀ t, t < b - a → cs[t]? = g.cols[a + t]?

/-- extra pillar number `n` is listed for column (j, i) at the given corner: it comes from the natural pillar of the
corner and the column is among those listed for it -/
def Applies (g : Grid) (n j i jp ip : Nat) : Prop :=
  g.spi[n]? = some (naturalPillar g j i jp ip) ∧ ∃ cs, IsSegment g n cs ∧ j * g.ni + i ∈ cs

/-- the face of a column is split according to the single face query: axis 1 for J, 2 for I -/
def FaceSplit (g : Grid) (j i axis : Nat) (polarity : Bool) : Prop := isSplitColumnFace g j i axis polarity = .ok true

/-- one of the four side faces of the column is split according to the single face query -/
def ColumnSplit (g : Grid) (j i : Nat) : Prop := ∃ axis polarity, FaceSplit g j i axis polarity

/-- one of the four side faces of the column is marked in the arrays of split faces -/
def ColumnMarked (g : Grid) (f : Flags × Flags) (j i : Nat) : Prop :=
  (j + 1 < g.nj ∧ f.1 j i = true) ∨ (∃ k, j = k + 1 ∧ f.1 k i = true) ∨
  (i + 1 < g.ni ∧ f.2 j i = true) ∨ (∃ k, i = k + 1 ∧ f.2 j k = true)

/-- number of steps between columns -/
def steps (j i j' i' : Nat) : Nat := ((j - j') + (j' - j)) + ((i - i') + (i' - i))

/-- `t` holds for each column the number of steps to the nearest column of a set, and nj + ni if the set is empty -/
def IsDistanceMap (g : Grid) (S : Nat → Nat → Prop) (t : Table) : Prop :=
  ∀ j i, j < g.nj → i < g.ni →
    ((∃ j' i', j' < g.nj ∧ i' < g.ni ∧ S j' i') →
      IsLeast {d | ∃ j' i', j' < g.nj ∧ i' < g.ni ∧ S j' i' ∧ d = steps j i j' i'} (t j i)) ∧
    ((¬ ∃ j' i', j' < g.nj ∧ i' < g.ni ∧ S j' i') → t j i = g.nj + g.ni)

end Verif.Pillars
