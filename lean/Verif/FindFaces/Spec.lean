import Verif.FindFaces.Bisector
import Mathlib.Logic.Relation

/-! # What is asked of bisectors -/

namespace Verif.FindFaces
variable {D : Nat}

/-- a cell of the grid -/
def InGrid (ext : Cell D) (c : Cell D) : Prop := ∀ a, c a < ext a

/-- `d` is the cell after `c` in the direction of some axis, and the face between them is not one of those given -/
def OpenStep (ext : Cell D) (faces : Fin D → List (Cell D)) (c d : Cell D) : Prop :=
  InGrid ext c ∧ InGrid ext d ∧ ∃ ax, d ax = c ax + 1 ∧ (∀ b, b ≠ ax → d b = c b) ∧ c ∉ faces ax

/-- one can get from one cell to the other through faces not given -/
def Connected (ext : Cell D) (faces : Fin D → List (Cell D)) : Cell D → Cell D → Prop :=
  Relation.ReflTransGen fun c d => OpenStep ext faces c d ∨ OpenStep ext faces d c

/-- the faces are internal faces of the grid -/
def FacesInGrid (ext : Cell D) (faces : Fin D → List (Cell D)) : Prop :=
  ∀ ax, ∀ c ∈ faces ax, InGrid ext c ∧ c ax + 1 < ext ax

/-- the faces of each axis, of which there are none if they are not given -/
def listOf (faces : Fin 3 → Option (List (Cell 3))) : Fin 3 → List (Cell 3) := fun ax => (faces ax).getD []

/-- mean of the layer numbers, starting at one, of the cells with a property -/
noncomputable def MeanLayer (ext : Cell 3) (p : Cell 3 → Bool) : ℚ :=
  (((cells ext).filter p).map fun c => ((c 0 : ℚ) + 1)).sum / ((cells ext).filter p).length

end Verif.FindFaces
