import Verif.Box.Model

/-!
# What the box properties mean

A box denotes a set of cells; nothing here uses the functions of the model.
-/

namespace Verif.Box

/-- cell `c` lies in box `b` -/
def In (c : V3) (b : Box) : Prop :=
  b.lo.k ≤ c.k ∧ c.k ≤ b.hi.k ∧ b.lo.j ≤ c.j ∧ c.j ≤ b.hi.j ∧ b.lo.i ≤ c.i ∧ c.i ≤ b.hi.i

instance (c : V3) (b : Box) : Decidable (In c b) := by unfold In; infer_instance

/-- minimum not above maximum in each axis -/
def Valid (b : Box) : Prop := b.lo.k ≤ b.hi.k ∧ b.lo.j ≤ b.hi.j ∧ b.lo.i ≤ b.hi.i

instance (b : Box) : Decidable (Valid b) := by unfold Valid; infer_instance

/-- every cell of `a` is a cell of `b` -/
def Sub (a b : Box) : Prop := ∀ c, In c a → In c b

/-- `r` has exactly the cells of `n` that are not in `t` -/
def IsRemainder (r n t : Box) : Prop := ∀ c, In c r ↔ (In c n ∧ ¬ In c t)

/-- `t` spans `n` completely in the two axes other than `d` -/
def SpansExcept (t n : Box) (d : Nat) : Prop :=
  ∀ x, x < 3 → x ≠ d → t.lo.get x = n.lo.get x ∧ t.hi.get x = n.hi.get x

/-- the slab of `n` covering the range shared with `e` in axis `d` -/
def IsSlab (t e n : Box) (d : Nat) : Prop :=
  SpansExcept t n d ∧ t.lo.get d = max (e.lo.get d) (n.lo.get d) ∧
    t.hi.get d = min (e.hi.get d) (n.hi.get d)

end Verif.Box
