import Verif.Zones.Model

/-! # Specification vocabulary for zone layer ranges -/

namespace Verif.Zones

/-- the layer has an active cell in the zone -/
def Active (layers : List Layer) (k : Nat) (z : Int) : Prop := ∃ l : Layer, layers[k]? = some l ∧ some z ∈ l

/-- the layer has active cells and all of them are in the zone -/
def WhollyIn (layers : List Layer) (k : Nat) (z : Int) : Prop :=
  Active layers k z ∧ ∀ z', Active layers k z' → z' = z

end Verif.Zones
