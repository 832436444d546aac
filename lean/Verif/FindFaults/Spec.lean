import Verif.FindFaults.Model
import Mathlib.Logic.Relation

/-! # Specification for finding the faults of a grid -/

namespace Verif.FindFaults

/-- The face is in the grid. -/
def Inside (nj ni : Nat) : Face → Prop
  | .j j i => j + 1 < nj ∧ i < ni
  | .i j i => j < nj ∧ i + 1 < ni

/-- Two columns do not share both pillars of the face between them. -/
def Split (p : Pillars) : Face → Prop
  | .j j i => ¬ (p j i 1 0 = p (j + 1) i 0 0 ∧ p j i 1 1 = p (j + 1) i 0 1)
  | .i j i => ¬ (p j i 0 1 = p j (i + 1) 0 0 ∧ p j i 1 1 = p j (i + 1) 1 0)

/-- The next face in the same line of faces. -/
def Next : Face → Face → Prop
  | .j j i, .j j' i' => j' = j ∧ i' = i + 1
  | .i j i, .i j' i' => i' = i ∧ j' = j + 1
  | _, _ => False

/-- At the inner pillar between four columns just one of the two J faces is split, and just one of the two I faces. -/
def Meet (p : Pillars) (f g : Face) : Prop :=
  ∃ j i, (f = .j j i ∧ ¬ Split p (.j j (i + 1)) ∨ f = .j j (i + 1) ∧ ¬ Split p (.j j i)) ∧
    (g = .i j i ∧ ¬ Split p (.i (j + 1) i) ∨ g = .i (j + 1) i ∧ ¬ Split p (.i j i))

/-- Split faces which are next to each other in a line, or which alone meet at a pillar. -/
def Link (nj ni : Nat) (p : Pillars) (f g : Face) : Prop :=
  Inside nj ni f ∧ Inside nj ni g ∧ Split p f ∧ Split p g ∧ (Next f g ∨ Meet p f g)

/-- Joined by such links. -/
def Joined (nj ni : Nat) (p : Pillars) : Face → Face → Prop := Relation.EqvGen (Link nj ni p)

/-- The mean over the four corners of a face of how much deeper the second column is than the first. -/
def MeanThrow (first second : Nat → Nat → ℚ) : ℚ :=
  ((second 0 0 - first 0 0) + (second 0 1 - first 0 1) + (second 1 0 - first 1 0) + (second 1 1 - first 1 1)) / 4

end Verif.FindFaults
