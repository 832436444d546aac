import Mathlib.Algebra.Order.Field.Basic
import Mathlib.Algebra.Module.Defs
import Mathlib.Algebra.BigOperators.Group.Finset.Basic

/-! # Specifications for measured depth look-ups along wells -/

namespace Verif.Wells.Spec

variable {K : Type*} [Field K] [LinearOrder K]
variable {V : Type*} [AddCommGroup V] [Module K V]

/-- the point `p` is at measured depth `m` on the path through the points `cp 0 … cp (n - 1)` having measured depths `md 0 … md (n - 1)`:
on one of the straight pieces, the same fraction along it in space and in measured depth -/
def OnPath (n : ℕ) (md : ℕ → K) (cp : ℕ → V) (m : K) (p : V) : Prop :=
  ∃ i f, i + 1 < n ∧ 0 ≤ f ∧ f ≤ 1 ∧ m = (1 - f) * md i + f * md (i + 1) ∧ p = (1 - f) • cp i + f • cp (i + 1)

/-- a sequence with one more element in front -/
def before {α : Type*} (a : α) (s : ℕ → α) : ℕ → α
  | 0 => a
  | i + 1 => s i

/-- interval `ii` of a blocked well with the given grid indices is the one of cell `ci`: it is blocked and `ci` blocked intervals come before -/
def IntervalOfCell (gi : List ℤ) (ci ii : ℕ) : Prop :=
  (∃ g, gi[ii]? = some g ∧ 0 ≤ g) ∧ ((gi.take ii).filter (fun g => decide (0 ≤ g))).length = ci

/-- the length of what the interval from `a` to `b` has in common with the interval from `c` to `d` -/
def overlap (a b c d : K) : K := max 0 (min b d - max a c)

/-- the measured depths of the nodes increase -/
def Increasing (n : ℕ) (md : ℕ → K) : Prop := ∀ i j, i < j → j < n → md i < md j

end Verif.Wells.Spec
