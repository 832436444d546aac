import Verif.Catalogue.Model

/-!
# What consistency of the catalogue means

Stated through the lookups of the `Model` class: `part_for_uuid`, `uuid_for_part`, `list_of_parts` and
the relationship queries.
-/

namespace Verif.Catalogue
open Verif.Py Verif.Xml

/-- uuids are 128 bit numbers -/
def ValidOp : Op → Prop
  | .add _ u _ _ _ _ => u < 2 ^ 128
  | _ => True

/-- A part found by uuid is filed under its name, with that uuid. -/
def FoundIsFiled (s : Cat) : Prop := ∀ u p, partForUuid s u = some p → uuidForPart s p = some u

/-- A part filed under a name is found by its uuid. -/
def FiledIsFound (s : Cat) : Prop := ∀ u p, uuidForPart s p = some u → partForUuid s u = some p

/-- The main tree (from which the epc file is written) names exactly the parts filed, each once. -/
def MainTreeComplete (s : Cat) : Prop :=
  s.overrides.Nodup ∧ ∀ p, p ∈ s.overrides ↔ p ∈ listOfParts s false

/-- What an operation of a clean history must satisfy: a part added has a uuid not in the catalogue, and
no sub-directory starting with a slash. -/
def Allowed (s : Cat) : Op → Prop
  | .add c u _ _ _ sub => u < 2 ^ 128 ∧ (∀ p, uuidForPart s p ≠ some u) ∧ sub.head? ≠ some '/' ∧
      c.head? ≠ some '/'
  | _ => True

/-- A clean history: no operation raises an exception, all are allowed. -/
def Clean : Cat → List Op → Prop
  | _, [] => True
  | s, o :: os => (step s o).2 = .ok () ∧ Allowed s o ∧ Clean (step s o).1 os

/-! ## relationships -/

/-- If `a` refers to `b` then `b` is referred to by `a` and conversely; soft relationships are mutual. -/
def Mutual (s : Cat) : Prop :=
  ∀ a b, (b ∈ outs s a ↔ a ∈ ins s b) ∧ (b ∈ softs s a ↔ a ∈ softs s b)

/-- No pair is recorded both as a reference and as a soft relationship. -/
def OneStrength (s : Cat) : Prop :=
  ∀ a b, b ∈ softs s a → b ∉ outs s a ∧ b ∉ ins s a

/-- No relationship of any kind names `u`. -/
def Unnamed (s : Cat) (u : Nat) : Prop :=
  s.rels.get? u = none ∧ ∀ a, u ∉ outs s a ∧ u ∉ ins s a ∧ u ∉ softs s a

/-- The uuids that a reciprocal relationship would be recorded for, when it is recorded. -/
def related (s : Cat) (ta : List Char) (ua : Nat) (tb : List Char) (ub : Nat) : Option (Nat × Nat) := do
  let pa ← (partNameForObject ta ua false []).toOption
  let pb ← (partNameForObject tb ub false []).toOption
  let (va, _) ← s.relsForest.get? (← relsPartName pa)
  let (vb, _) ← s.relsForest.get? (← relsPartName pb)
  return (va, vb)

/-- The discipline under which relationships stay mutual: soft relationships only between two different
parts both of which have (or neither of which has) a record in the relations dictionary; the supporting
representation only changed to a part that has a record, from one that has. -/
def Disciplined (s : Cat) : Op → Prop
  | .relate ta ua tb ub => ∀ va vb, related s ta ua tb ub = some (va, vb) →
      va ≠ vb ∧ ((s.rels.get? va).isSome ↔ (s.rels.get? vb).isSome)
  | .changeSupport p o n => ∀ i, s.parts.get? p = some i → i.support = some o →
      (s.rels.get? i.uuid).isSome ∧ (s.rels.get? o).isSome ∧ (s.rels.get? n).isSome
  | _ => True

/-- In addition, references are only added between parts that have no soft relationship. -/
def Strict (s : Cat) : Op → Prop
  | .add _ u sp refs _ _ => ∀ r ∈ sp.toList ++ refs, r ∉ softs s u ∧ u ∉ softs s r
  | .changeSupport p _ n => ∀ i, s.parts.get? p = some i → n ∉ softs s i.uuid ∧ i.uuid ∉ softs s n
  | _ => True

/-- `P` holds of every operation of the history, in the state in which it is applied. -/
def Along (P : Cat → Op → Prop) : Cat → List Op → Prop
  | _, [] => True
  | s, o :: os => P s o ∧ Along P (step s o).1 os

end Verif.Catalogue
