import Verif.Units.Model

/-! # What is required of a unit table -/

namespace Verif.Units

/-- Every row is a linear, strictly increasing conversion to the base unit (B and C positive, D zero); a base unit has
one dimension. -/
def Sound (D : Data) : Prop :=
  (∀ r ∈ D.rows, 0 < r.a.2 ∧ 0 < r.b.1 ∧ 0 < r.b.2 ∧ 0 < r.c.1 ∧ 0 < r.c.2 ∧ r.d.1 = 0) ∧
  ∀ r ∈ D.rows, ∀ s ∈ D.rows, r.base = s.base → r.dim = s.dim

/-- Unit names are not empty and not surrounded by space; what aliases and case insensitive names stand for is in
the table. -/
def NamesSound (D : Data) : Prop :=
  (∀ r ∈ D.rows, r.name.toList ≠ [] ∧ strip r.name.toList = r.name.toList) ∧
  (∀ p ∈ D.aliases, valid D p.2.toList = true) ∧ ∀ p ∈ D.caseless, valid D p.toList = true

/-- the unit is a plain multiple of its base unit (no offset) -/
def IsScale (D : Data) (u : Uom) : Prop := ∀ r, find D u = some r → r.a.1 = 0

end Verif.Units
